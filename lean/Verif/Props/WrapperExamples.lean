import Verif.Props.WrapperGroups
/-
Examples for C64 and C65: networks on which the search and the grouping of fluids go wrong, and
networks meeting the hypotheses of the theorems.
-/
namespace Tespy

/-! ### an air cooled engine -/

def wbAir : CompObj := ⟨40, "air", "Source", [], ["out1"]⟩
def wbFuel : CompObj := ⟨41, "fuel", "Source", [], ["out1"]⟩
def wbWater : CompObj := ⟨42, "water", "Source", [], ["out1"]⟩
def wbSplit : CompObj := ⟨43, "splitter", "Splitter", ["in1"], ["out1", "out2"]⟩
def wbEngine : CompObj := ⟨44, "engine", "CombustionEngine", ["in1", "in2", "in3", "in4"], ["out1", "out2", "out3"]⟩
def wbSink1 : CompObj := ⟨45, "warm air", "Sink", ["in1"], []⟩
def wbSink2 : CompObj := ⟨46, "warm water", "Sink", ["in1"], []⟩
def wbSink3 : CompObj := ⟨47, "flue gas", "Sink", ["in1"], []⟩
def wbFlue : ConnObj := ⟨7, "flue gas", wbEngine, "out3", wbSink3, "in1"⟩
def wbA : ConnObj := ⟨0, "air", wbAir, "out1", wbSplit, "in1"⟩
def wbCool : ConnObj := ⟨1, "cooling air", wbSplit, "out1", wbEngine, "in1"⟩
def wbBurn : ConnObj := ⟨2, "combustion air", wbSplit, "out2", wbEngine, "in4"⟩
/-- air cools an engine and is burned in it, water cools it as well -/
def wbEngineConns : List ConnObj :=
  [wbA, wbCool, wbBurn, ⟨3, "fuel", wbFuel, "out1", wbEngine, "in3"⟩,
   ⟨4, "water", wbWater, "out1", wbEngine, "in2"⟩, ⟨5, "warm air", wbEngine, "out1", wbSink1, "in1"⟩,
   ⟨6, "warm water", wbEngine, "out2", wbSink2, "in1"⟩, wbFlue]
def wbEngineComps : List CompObj := [wbAir, wbFuel, wbWater, wbSplit, wbEngine, wbSink1, wbSink2, wbSink3]

theorem wbEngine_accepted : Accepted wbEngineConns wbEngineComps where
  conns := by decide +kernel
  compsOk := by decide +kernel
  declared := by decide +kernel
  listed := by decide +kernel
  classes := by
    intro cp hcp
    simp only [wbEngineComps, List.mem_cons, List.not_mem_nil, or_false] at hcp
    rcases hcp with rfl | rfl | rfl | rfl | rfl | rfl | rfl | rfl
    · exact ⟨.source, rfl, 0, rfl, rfl⟩
    · exact ⟨.source, rfl, 0, rfl, rfl⟩
    · exact ⟨.source, rfl, 0, rfl, rfl⟩
    · exact ⟨.splitter, rfl, 2, rfl, by decide +kernel⟩
    · exact ⟨.combustionEngine, rfl, 0, rfl, rfl⟩
    · exact ⟨.sink, rfl, 0, rfl, rfl⟩
    · exact ⟨.sink, rfl, 0, rfl, rfl⟩
    · exact ⟨.sink, rfl, 0, rfl, rfl⟩
  labels := by decide +kernel
  distinct := by decide +kernel

/-- C64 fails for engines: the air gets to the flue gas, but no group holds both the air and the
flue gas. -/
theorem C64_engine_false :
    Accepted wbEngineConns wbEngineComps ∧ FluidStart wbA ∧ FluidReaches wbEngineConns wbA wbFlue ∧
    ∃ groups, createWrapperBranches wbEngineConns wbEngineComps 8 = .ok groups ∧
      ∀ g ∈ groups, wbA ∈ g.conns → wbFlue ∉ g.conns := by
  refine ⟨wbEngine_accepted, trivial, ?_, ?_⟩
  · refine .next (i := wbBurn) (.next (i := wbA) .start ?_ ?_ ⟨rfl, trivial⟩) ?_ ?_ ⟨rfl, .inr (.inr ⟨.inr rfl, rfl⟩)⟩
    all_goals decide +kernel
  · have h : (createWrapperBranches wbEngineConns wbEngineComps 8).toOption.map
        (fun gs => gs.all (fun g => decide (wbA ∈ g.conns → wbFlue ∉ g.conns))) = some true := by
      decide +kernel
    cases hg : createWrapperBranches wbEngineConns wbEngineComps 8 with
    | error e => rw [hg] at h; simp [Except.toOption] at h
    | ok gs =>
      rw [hg] at h
      simp only [Except.toOption, Option.map_some, Option.some.injEq, List.all_eq_true,
        decide_eq_true_eq] at h
      exact ⟨gs, rfl, h⟩

/-! ### five sources -/

def wbSrc (k : ℕ) (l : String) : CompObj := ⟨k, l, "Source", [], ["out1"]⟩
def wbSpl (k : ℕ) (l : String) : CompObj := ⟨k, l, "Splitter", ["in1"], ["out1", "out2"]⟩
def wbMrg (k : ℕ) (l : String) : CompObj := ⟨k, l, "Merge", ["in1", "in2"], ["out1"]⟩
def wbSnk (k : ℕ) (l : String) : CompObj := ⟨k, l, "Sink", ["in1"], []⟩

/-- sources `a`, `p`, `b`, `q`, `x`; `a` is mixed with `p` and with `x`, `b` with `q` and with `x` -/
def wbFive : List ConnObj :=
  [⟨0, "a", wbSrc 50 "A", "out1", wbSpl 55 "SA", "in1"⟩,
   ⟨1, "p", wbSrc 51 "P", "out1", wbMrg 58 "M1", "in2"⟩,
   ⟨2, "b", wbSrc 52 "B", "out1", wbSpl 56 "SB", "in1"⟩,
   ⟨3, "q", wbSrc 53 "Q", "out1", wbMrg 59 "M2", "in2"⟩,
   ⟨4, "x", wbSrc 54 "X", "out1", wbSpl 57 "SX", "in1"⟩,
   ⟨5, "a1", wbSpl 55 "SA", "out1", wbMrg 58 "M1", "in1"⟩,
   ⟨6, "a2", wbSpl 55 "SA", "out2", wbMrg 60 "M3", "in1"⟩,
   ⟨7, "b1", wbSpl 56 "SB", "out1", wbMrg 59 "M2", "in1"⟩,
   ⟨8, "b2", wbSpl 56 "SB", "out2", wbMrg 61 "M4", "in1"⟩,
   ⟨9, "x1", wbSpl 57 "SX", "out1", wbMrg 60 "M3", "in2"⟩,
   ⟨10, "x2", wbSpl 57 "SX", "out2", wbMrg 61 "M4", "in2"⟩,
   ⟨11, "m1", wbMrg 58 "M1", "out1", wbSnk 62 "S1", "in1"⟩,
   ⟨12, "m2", wbMrg 59 "M2", "out1", wbSnk 63 "S2", "in1"⟩,
   ⟨13, "m3", wbMrg 60 "M3", "out1", wbSnk 64 "S3", "in1"⟩,
   ⟨14, "m4", wbMrg 61 "M4", "out1", wbSnk 65 "S4", "in1"⟩]
def wbFiveComps : List CompObj :=
  [wbSrc 50 "A", wbSrc 51 "P", wbSrc 52 "B", wbSrc 53 "Q", wbSrc 54 "X", wbSpl 55 "SA", wbSpl 56 "SB",
   wbSpl 57 "SX", wbMrg 58 "M1", wbMrg 59 "M2", wbMrg 60 "M3", wbMrg 61 "M4", wbSnk 62 "S1",
   wbSnk 63 "S2", wbSnk 64 "S3", wbSnk 65 "S4"]

theorem wbFive_accepted : Accepted wbFive wbFiveComps where
  conns := by decide +kernel
  compsOk := by decide +kernel
  declared := by decide +kernel
  listed := by decide +kernel
  classes := by
    intro cp hcp
    have hs : ∀ k l, (wbSrc k l).IsA .source := fun k l => ⟨rfl, 0, rfl, rfl⟩
    have hp : ∀ k l, (wbSpl k l).IsA .splitter := fun k l =>
      ⟨rfl, 2, rfl, show ["out1", "out2"] = numbered "out" 2 by decide +kernel⟩
    have hm : ∀ k l, (wbMrg k l).IsA .merge := fun k l =>
      ⟨rfl, 2, show ["in1", "in2"] = numbered "in" 2 by decide +kernel, rfl⟩
    have hk : ∀ k l, (wbSnk k l).IsA .sink := fun k l => ⟨rfl, 0, rfl, rfl⟩
    simp only [wbFiveComps, List.mem_cons, List.not_mem_nil, or_false] at hcp
    rcases hcp with rfl | rfl | rfl | rfl | rfl | rfl | rfl | rfl | rfl | rfl | rfl | rfl | rfl | rfl | rfl | rfl
    all_goals first
      | exact ⟨_, hs _ _⟩
      | exact ⟨_, hp _ _⟩
      | exact ⟨_, hm _ _⟩
      | exact ⟨_, hk _ _⟩
  labels := by decide +kernel
  distinct := by decide +kernel

/-- labels of the connections of the groups -/
def groupLabels (r : PyRes (List WBranch)) : Option (List (List String)) :=
  r.toOption.map (fun gs => gs.map (fun g => g.conns.map ConnObj.label))

/-- C65 fails: the merging stops too early. The outlet `m4` of a merge is in both groups, its
inlet `x2` is not in the group of its inlet `b2`. -/
theorem C65_overlap_false :
    Accepted wbFive wbFiveComps ∧
    (∀ s ∈ wbFive, FluidStart s → ¬ CoolsAndBurns wbFive s) ∧
    ∃ g h, groupLabels (createWrapperBranches wbFive wbFiveComps 15) = some [g, h] ∧
      "m4" ∈ g ∧ "m4" ∈ h ∧ "b2" ∈ g ∧ "b2" ∉ h ∧ "x2" ∈ h ∧ "x2" ∉ g := by
  refine ⟨wbFive_accepted, ?_, ?_⟩
  · rintro s _ _ ⟨a, ha, _, _, _, _, _, h, _⟩
    exact absurd h ((by decide +kernel : ∀ a ∈ wbFive, a.target.wpass ≠ .engine) a ha)
  · have h : (groupLabels (createWrapperBranches wbFive wbFiveComps 15)).map (fun l =>
        match l with
        | [g, h] => decide ("m4" ∈ g ∧ "m4" ∈ h ∧ "b2" ∈ g ∧ "b2" ∉ h ∧ "x2" ∈ h ∧ "x2" ∉ g)
        | _ => false) = some true := by decide +kernel
    rw [Option.map_eq_some_iff] at h
    obtain ⟨l, hl, h⟩ := h
    match l, h with
    | [g, h'], h => exact ⟨g, h', hl, of_decide_eq_true h⟩

-- the same network with another order of the components is divided correctly
example : (groupLabels (createWrapperBranches wbFive
    ([wbSrc 54 "X", wbSrc 50 "A", wbSrc 51 "P", wbSrc 52 "B", wbSrc 53 "Q"] ++ wbFiveComps.drop 5) 15)).map
      (fun l => l.map List.length) = some [15] := by decide +kernel

-- non-vacuity of `C64_groups_partial`: the drum with evaporator loop is one group
example : (∀ s ∈ drumConns, FluidStart s → ¬ CoolsAndBurns drumConns s) ∧
    (groupLabels (createWrapperBranches drumConns drumComps 4)) = some [["feed", "down", "up", "steam"]] := by
  refine ⟨?_, by decide +kernel⟩
  rintro s _ _ ⟨a, ha, _, _, _, _, _, h, _⟩
  exact absurd h ((by decide +kernel : ∀ a ∈ drumConns, a.target.wpass ≠ .engine) a ha)

end Tespy
