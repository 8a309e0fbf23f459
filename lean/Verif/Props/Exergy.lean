import Verif.Model.Exergy
import Mathlib.Tactic.Ring
import Mathlib.Tactic.Linarith
import Mathlib.Tactic.LinearCombination
import Mathlib.Algebra.Order.Field.Rat

/-
C42: the exergy destruction of a component is its exergy balance and, for solved components, the
ambient temperature times the entropy production (Gouy-Stodola).
-/
namespace Tespy
variable {K : Type} [Field K] [LinearOrder K] [IsStrictOrderedRing K]

/-! ## Specification -/

/-- the specific physical exergy of a stream against the reference values `h0`, `s0` of its fluid
at ambient state -/
def Spec.PhysEx (T0 h0 s0 : K) (c : ExStream K) : Prop :=
  c.exPh = (c.h - h0) - T0 * (c.s - s0)

/-! ## Connections -/

/-- **C42, connections.** The physical exergy of a connection is `(h - h0) - T0 (s - s0)` with the
properties of its fluid at ambient pressure and temperature, independent of the pressure at which
it is split into a thermal and a mechanical part. -/
theorem C42_physical_exergy (hPT sPT : K → K → PyRes K) (p pamb T0 : K) (c c' : ExStream K)
    (h : getPhysicalExergy hPT sPT p pamb T0 c = .ok c') :
    ∃ h0 s0, hPT pamb T0 = .ok h0 ∧ sPT pamb T0 = .ok s0 ∧ Spec.PhysEx T0 h0 s0 c' ∧
      c'.T = c.T ∧ c'.m = c.m ∧ c'.h = c.h ∧ c'.s = c.s := by
  unfold getPhysicalExergy at h
  split at h
  · cases h
  · rename_i r hr
    cases h
    unfold physExergy at hr
    repeat' split at hr
    all_goals first
      | (cases hr; done)
      | skip
    rename_i h0 hh0 _ s0 hs0
    cases hr
    refine ⟨_, _, hh0, hs0, ?_, rfl, rfl, rfl, rfl⟩
    simp only [Spec.PhysEx, ExStream.exPh]
    ring

theorem exPh_split (c : ExStream K) : c.ExPh = c.ExT + c.ExM := by
  simp only [ExStream.ExPh, ExStream.exPh, ExStream.ExT, ExStream.ExM]
  ring

/-! ## Turbomachines and valves -/

/-- **C42, pumps and compressors.** -/
theorem C42_pump (T0 P : K) (i o : ExStream K) :
    (pumpExergy T0 P i o).ED
      = if T0 < i.T ∧ o.T < T0 then none else some (P + i.ExPh - o.ExPh) := by
  simp only [pumpExergy, exPh_split]
  by_cases h1 : T0 ≤ i.T ∧ T0 ≤ o.T
  · rw [if_pos h1, if_neg (fun h => absurd h.2 (not_lt.2 h1.2))]
    simp only [exClose, nsub, Option.some.injEq]; ring
  · rw [if_neg h1]
    by_cases h2 : i.T ≤ T0 ∧ T0 < o.T
    · rw [if_pos h2, if_neg (fun h => absurd h.2 (not_lt.2 h2.2.le))]
      simp only [exClose, nsub, Option.some.injEq]; ring
    · rw [if_neg h2]
      by_cases h3 : i.T ≤ T0 ∧ o.T ≤ T0
      · rw [if_pos h3, if_neg (fun h => absurd h.1 (not_lt.2 h3.1))]
        simp only [exClose, nsub, Option.some.injEq]; ring
      · rw [if_neg h3, if_pos]
        · rfl
        · rcases lt_or_ge T0 i.T with hi | hi
          · refine ⟨hi, lt_of_not_ge fun ho => h1 ⟨hi.le, ho⟩⟩
          · exact absurd ⟨hi, not_lt.1 fun ho => h2 ⟨hi, ho⟩⟩ h3

/-- **C42, turbines.** The power is negative. -/
theorem C42_turbine (T0 P : K) (i o : ExStream K) :
    (turbineExergy T0 P i o).ED
      = if i.T < T0 ∧ T0 < o.T then none else some (P + i.ExPh - o.ExPh) := by
  simp only [turbineExergy, exPh_split]
  by_cases h1 : T0 ≤ i.T ∧ T0 ≤ o.T
  · rw [if_pos h1, if_neg (fun h => absurd h.1 (not_lt.2 h1.1))]
    simp only [exClose, nsub, Option.some.injEq]; ring
  · rw [if_neg h1]
    by_cases h2 : T0 < i.T ∧ o.T ≤ T0
    · rw [if_pos h2, if_neg (fun h => absurd h.2 (not_lt.2 h2.2))]
      simp only [exClose, nsub, Option.some.injEq]; ring
    · rw [if_neg h2]
      by_cases h3 : i.T ≤ T0 ∧ o.T ≤ T0
      · rw [if_pos h3, if_neg (fun h => absurd h.2 (not_lt.2 h3.2))]
        simp only [exClose, nsub, Option.some.injEq]; ring
      · rw [if_neg h3, if_pos]
        · rfl
        · rcases lt_or_ge T0 o.T with ho | ho
          · exact ⟨lt_of_not_ge fun hi => h1 ⟨hi, ho.le⟩, ho⟩
          · exact absurd ⟨not_lt.1 fun hi => h2 ⟨hi, ho⟩, ho⟩ h3

/-- **C42, valves.** -/
theorem C42_valve (T0 : K) (i o : ExStream K) :
    (valveExergy T0 i o).ED
      = if i.T ≤ T0 ∧ T0 < o.T then none else some (i.ExPh - o.ExPh) := by
  simp only [valveExergy, exPh_split]
  by_cases h1 : T0 < i.T ∧ T0 < o.T
  · rw [if_pos h1, if_neg (fun h => absurd h.1 (not_le.2 h1.1))]
    rfl
  · rw [if_neg h1]
    by_cases h2 : o.T ≤ T0 ∧ T0 < i.T
    · rw [if_pos h2, if_neg (fun h => absurd h.2 (not_lt.2 h2.1))]
      simp only [exCloseNan, exClose, nsub, Option.some.injEq]; ring
    · rw [if_neg h2]
      by_cases h3 : i.T ≤ T0 ∧ o.T ≤ T0
      · rw [if_pos h3, if_neg (fun h => absurd h.2 (not_lt.2 h3.2))]
        simp only [exCloseNan, exClose, nsub, Option.some.injEq]; ring
      · rw [if_neg h3, if_pos]
        · rfl
        · rcases lt_or_ge T0 o.T with ho | ho
          · exact ⟨not_lt.1 fun hi => h1 ⟨hi, ho⟩, ho⟩
          · exact absurd ⟨not_lt.1 fun hi => h2 ⟨ho, hi⟩, ho⟩ h3

/-- **C42, Gouy-Stodola for one stream.** If the streams have the same mass flow and fluid and the
power is the enthalpy difference (as reported), the exergy balance is ambient temperature times
entropy production. For valves the power is zero. -/
theorem C42_gouy_stodola (T0 h0 s0 P : K) (i o : ExStream K) (hm : o.m = i.m)
    (hi : Spec.PhysEx T0 h0 s0 i) (ho : Spec.PhysEx T0 h0 s0 o) (hP : P = i.m * (o.h - i.h)) :
    P + i.ExPh - o.ExPh = T0 * streamEntropy i o := by
  simp only [ExStream.ExPh, streamEntropy, hm, hP]
  rw [hi, ho]
  ring

/-! ## Heat exchangers -/

/-- **C42, heat exchangers.** Whatever the temperatures are, exergy destruction is the exergy
entering minus the exergy leaving. -/
theorem C42_heat_exchanger (T0 : K) (i1 i2 o1 o2 : ExStream K) :
    (hexExergy T0 i1 i2 o1 o2).ED = some (i1.ExPh + i2.ExPh - o1.ExPh - o2.ExPh) := by
  simp only [hexExergy, exPh_split]
  repeat' split
  all_goals
    simp only [exCloseNan, exClose, nsub, Option.some.injEq]
    ring

/-- **C42, Gouy-Stodola for heat exchangers.** In a solved heat exchanger (mass flows and energy
balance) the exergy destruction is ambient temperature times the reported entropy production,
whatever the entropies at mean pressure are. -/
theorem C42_heat_exchanger_gouy_stodola (T0 h1 s1 h2 s2 a b c d : K) (i1 i2 o1 o2 : ExStream K)
    (hm1 : o1.m = i1.m) (hm2 : o2.m = i2.m) (hi1 : Spec.PhysEx T0 h1 s1 i1)
    (ho1 : Spec.PhysEx T0 h1 s1 o1) (hi2 : Spec.PhysEx T0 h2 s2 i2)
    (ho2 : Spec.PhysEx T0 h2 s2 o2)
    (he : i1.m * (o1.h - i1.h) + i2.m * (o2.h - i2.h) = 0) :
    (hexExergy T0 i1 i2 o1 o2).ED = some (T0 * hexEntropy i1 i2 o1 o2 a b c d) := by
  rw [C42_heat_exchanger]
  simp only [Option.some.injEq, ExStream.ExPh, hexEntropy, sideEntropy, hm1, hm2]
  rw [hi1, ho1, hi2, ho2]
  linear_combination -he

/-- **C42, drums.** -/
theorem C42_drum (i1 i2 o1 o2 : ExStream K) :
    (drumExergy i1 i2 o1 o2).ED = some (i1.ExPh + i2.ExPh - o1.ExPh - o2.ExPh) := by
  simp only [drumExergy, exClose, nsub, Option.some.injEq]
  ring

/-- **C42, combustion.** Physical and chemical exergy of the streams. -/
theorem C42_combustion (d : Bool) (i1 i2 o : ExStream K) :
    (combustionExergy d i1 i2 o).ED
      = some ((i1.ExPh + i1.ExC) + (i2.ExPh + i2.ExC) - (o.ExPh + o.ExC)) := by
  simp only [combustionExergy, exClose, nsub, Option.some.injEq]
  ring

/-! ## Merges -/

theorem mergeStep_diff (T0 : K) (o : ExStream K) (l : List (ExStream K)) (acc : K × K) :
    (l.foldl (mergeStep T0 o) acc).1 - (l.foldl (mergeStep T0 o) acc).2
      = acc.1 - acc.2 + ((l.map ExStream.ExPh).sum - (l.map ExStream.m).sum * o.exPh) := by
  induction l generalizing acc with
  | nil => simp
  | cons i l ih =>
    rw [List.foldl_cons, ih, List.map_cons, List.sum_cons, List.map_cons, List.sum_cons]
    have : (mergeStep T0 o acc i).1 - (mergeStep T0 o acc i).2
        = acc.1 - acc.2 + (i.ExPh - i.m * o.exPh) := by
      simp only [mergeStep]
      repeat' split
      all_goals
        simp only [ExStream.ExPh]
        ring
    rw [this]
    ring

/-- **C42, merges.** For any number of inlets: if the outlet is not exactly at ambient
temperature, exergy destruction is the exergy entering minus the exergy leaving; otherwise it is
not available. -/
theorem C42_merge_partial (T0 : K) (inl : List (ExStream K)) (o : ExStream K)
    (hm : o.m = (inl.map ExStream.m).sum) :
    (mergeExergy T0 inl o).ED
      = if o.T = T0 then none else some ((inl.map ExStream.ExPh).sum - o.ExPh) := by
  unfold mergeExergy
  split
  · rfl
  · simp only [exClose, nsub, Option.some.injEq]
    rw [mergeStep_diff]
    simp only [ExStream.ExPh, hm]
    ring

theorem mergeEntropy_eq (l : List (ExStream K × K)) (o : ExStream K × K) :
    mergeEntropy l o = o.1.m * (o.1.s - o.2) - (l.map fun i => i.1.m * (i.1.s - i.2)).sum := by
  have : ∀ (l : List (ExStream K × K)) (a : K),
      l.foldl (fun a i => a - i.1.m * (i.1.s - i.2)) a
        = a - (l.map fun i => i.1.m * (i.1.s - i.2)).sum := by
    intro l
    induction l with
    | nil => intro a; simp
    | cons i l ih => intro a; rw [List.foldl_cons, ih, List.map_cons, List.sum_cons]; ring
  exact this l _

/-- **C42, Gouy-Stodola for merges.** With the reference entropy of the entropy balance at the
ambient state of the analysis (every stream `i` has reference enthalpy `h0 i` and entropy `s0 i`,
and the reference enthalpies are in balance too) exergy destruction is ambient temperature times
entropy production. -/
theorem C42_merge_gouy_stodola (T0 : K) (inl : List (ExStream K × K)) (o : ExStream K × K)
    (hT : o.1.T ≠ T0) (h0 : ExStream K × K → K)
    (hex : ∀ i ∈ inl, Spec.PhysEx T0 (h0 i) i.2 i.1) (hexo : Spec.PhysEx T0 (h0 o) o.2 o.1)
    (hm : o.1.m = (inl.map fun i => i.1.m).sum)
    (he : (inl.map fun i => i.1.m * (i.1.h - h0 i)).sum = o.1.m * (o.1.h - h0 o)) :
    (mergeExergy T0 (inl.map Prod.fst) o.1).ED = some (T0 * mergeEntropy inl o) := by
  rw [C42_merge_partial T0 (inl.map Prod.fst) o.1 (by rw [hm, List.map_map]; rfl), if_neg hT,
    mergeEntropy_eq]
  have h1 : ((inl.map Prod.fst).map ExStream.ExPh).sum
      = (inl.map fun i => i.1.m * (i.1.h - h0 i)).sum
        - T0 * (inl.map fun i => i.1.m * (i.1.s - i.2)).sum := by
    clear hm he
    induction inl with
    | nil => simp
    | cons i l ih =>
      have ih' := ih fun i hi => hex i (by simp [hi])
      have hi := hex i (by simp)
      simp only [List.map_cons, List.sum_cons]
      rw [ih', ExStream.ExPh, hi]
      ring
  rw [h1, he, ExStream.ExPh, hexo]
  congr 1
  ring

/-! ## Simple heat exchangers -/

/-- exergy of the heat exchanged through the bus: negative with base `component` -/
def Spec.heatExergy (baseBus : Bool) (r : ExRes K) : Option K :=
  match r.bus with
  | some b => if baseBus then b.massless else b.massless.map fun x => -x
  | none => none

/-- **C42, simple heat exchangers (partial).** Above ambient temperature and without heat the
balance closes: with the heat rejected dissipated; with the heat rejected delivered to a bus
(base `component`); with the heat received from a bus (base `bus`); and without heat. -/
theorem C42_simple_partial (T0 Q : K) (d : Bool) (i o : ExStream K)
    (h : Q = 0 ∨ (T0 ≤ i.T ∧ T0 ≤ o.T)) :
    (Q = 0 → (simpleHexExergy T0 Q d i o).ED = some (i.ExPh - o.ExPh)) ∧
    (Q < 0 → d = true → (simpleHexExergy T0 Q d i o).ED = some (i.ExPh - o.ExPh)) ∧
    (Q < 0 → d = false → ∃ E, Spec.heatExergy false (simpleHexExergy T0 Q d i o) = some E ∧
      (simpleHexExergy T0 Q d i o).ED = some (i.ExPh - o.ExPh + E)) ∧
    (0 < Q → ∃ E, Spec.heatExergy true (simpleHexExergy T0 Q d i o) = some E ∧
      (simpleHexExergy T0 Q d i o).ED = some (i.ExPh - o.ExPh + E)) := by
  refine ⟨?_, ?_, ?_, ?_⟩
  · intro hQ
    simp only [simpleHexExergy, hQ, lt_irrefl, if_false]
    rfl
  · intro hQ hd
    have h' := h.resolve_left hQ.ne
    simp only [simpleHexExergy, if_pos hQ, if_pos h', hd, if_true]
    rfl
  · intro hQ hd
    have h' := h.resolve_left hQ.ne
    refine ⟨-(i.ExT - o.ExT), ?_, ?_⟩
    · simp [simpleHexExergy, if_pos hQ, if_pos h', hd, exCloseNan, exClose, Spec.heatExergy]
    · simp only [simpleHexExergy, if_pos hQ, if_pos h', hd, exCloseNan, exClose, nsub, exPh_split,
        Option.some.injEq, Bool.false_eq_true, if_false]
      ring
  · intro hQ
    have h' := h.resolve_left hQ.ne'
    have h2 : T0 - 1 / 1000000 ≤ i.T ∧ T0 - 1 / 1000000 ≤ o.T := by
      have : (0 : K) < 1 / 1000000 := by positivity
      constructor <;> linarith [h'.1, h'.2]
    refine ⟨o.ExT - i.ExT, ?_, ?_⟩
    · simp only [simpleHexExergy, if_neg hQ.le.not_gt, if_pos hQ, if_pos h2, exCloseNan, exClose,
        Spec.heatExergy, if_true]
    · simp only [simpleHexExergy, if_neg hQ.le.not_gt, if_pos hQ, if_pos h2, exCloseNan, exClose,
        nsub, exPh_split, Option.some.injEq]
      ring

/-- **C42, cold surroundings.** Heat received below ambient temperature and delivered as cold to a
bus with base `component`: the balance closes; if it is dissipated, the mechanical exergy is
missing in the destruction. -/
theorem C42_simple_cold_partial (T0 Q : K) (d : Bool) (i o : ExStream K) (hQ : 0 < Q)
    (hi : i.T < T0 - 1 / 1000000) (ho : o.T < T0) :
    (d = false → ∃ E, Spec.heatExergy false (simpleHexExergy T0 Q d i o) = some E ∧
      (simpleHexExergy T0 Q d i o).ED = some (i.ExPh - o.ExPh + E)) ∧
    (d = true → (simpleHexExergy T0 Q d i o).ED
      = some (i.ExPh - o.ExPh - (i.ExM - o.ExM))) := by
  have h1 : ¬ (T0 - 1 / 1000000 ≤ i.T ∧ T0 - 1 / 1000000 ≤ o.T) := fun h => absurd h.1 (not_le.2 hi)
  have h2 : ¬ (i.T ≤ T0 ∧ T0 < o.T) := fun h => absurd h.2 (not_lt.2 ho.le)
  have h3 : i.T < T0 ∧ o.T < T0 :=
    ⟨lt_trans hi (by have : (0 : K) < 1 / 1000000 := by positivity
                     linarith), ho⟩
  constructor
  · intro hd
    refine ⟨-(i.ExT - o.ExT), ?_, ?_⟩
    · simp only [simpleHexExergy, if_neg hQ.le.not_gt, if_pos hQ, if_neg h1, if_neg h2, if_pos h3,
        hd, exCloseNan, exClose, Spec.heatExergy, Bool.false_eq_true, if_false, Option.map_some]
    · simp only [simpleHexExergy, if_neg hQ.le.not_gt, if_pos hQ, if_neg h1, if_neg h2, if_pos h3,
        hd, exCloseNan, exClose, nsub, exPh_split, Option.some.injEq, Bool.false_eq_true, if_false]
      ring
  · intro hd
    simp only [simpleHexExergy, if_neg hQ.le.not_gt, if_pos hQ, if_neg h1, if_neg h2, if_pos h3,
      hd, exCloseNan, exPh_split, Option.some.injEq, if_true]
    ring

/-- **C42, heating across the ambient temperature.** The exergy of the cold inlet is delivered to
the bus (base `component`); the balance closes. -/
theorem C42_simple_heated_partial (T0 Q : K) (d : Bool) (i o : ExStream K) (hQ : 0 < Q)
    (hi : i.T < T0 - 1 / 1000000) (ho : T0 < o.T) :
    ∃ E, Spec.heatExergy false (simpleHexExergy T0 Q d i o) = some E ∧
      (simpleHexExergy T0 Q d i o).ED = some (i.ExPh - o.ExPh + E) := by
  have h1 : ¬ (T0 - 1 / 1000000 ≤ i.T ∧ T0 - 1 / 1000000 ≤ o.T) := fun h => absurd h.1 (not_le.2 hi)
  have h2 : i.T ≤ T0 ∧ T0 < o.T :=
    ⟨(lt_trans hi (by have : (0 : K) < 1 / 1000000 := by positivity
                      linarith)).le, ho⟩
  refine ⟨-i.ExT, ?_, ?_⟩
  · simp only [simpleHexExergy, if_neg hQ.le.not_gt, if_pos hQ, if_neg h1, if_pos h2,
      exCloseNan, exClose, Spec.heatExergy, Bool.false_eq_true, if_false, Option.map_some]
  · simp only [simpleHexExergy, if_neg hQ.le.not_gt, if_pos hQ, if_neg h1, if_pos h2,
      exCloseNan, exClose, nsub, exPh_split, Option.some.injEq]
    ring

/-! ## Refutations and examples -/

def exA : ExStream ℚ := ⟨400, 2, 500, 3, 40, 10, 0⟩
def exB : ExStream ℚ := ⟨350, 2, 420, 2, 25, 5, 0⟩
def exC : ExStream ℚ := ⟨290, 2, 300, 1, 3, 5, 0⟩
def exD : ExStream ℚ := ⟨270, 2, 200, 1, 10, 5, 0⟩

/- the three cases around the ambient temperature of 300, and the one not implemented -/
example : (pumpExergy 300 10 exB exA).ED = some (10 + exB.ExPh - exA.ExPh) ∧
    (pumpExergy 300 10 exC exA).ED = some (10 + exC.ExPh - exA.ExPh) ∧
    (pumpExergy 300 10 exD exC).ED = some (10 + exD.ExPh - exC.ExPh) ∧
    (pumpExergy 300 10 exA exC).ED = none := by decide +kernel
example : (turbineExergy 300 (-10) exA exB).ED = some (-10 + exA.ExPh - exB.ExPh) ∧
    (turbineExergy 300 (-10) exA exC).ED = some (-10 + exA.ExPh - exC.ExPh) ∧
    (turbineExergy 300 (-10) exD exC).ED = some (-10 + exD.ExPh - exC.ExPh) ∧
    (turbineExergy 300 (-10) exC exA).ED = none := by decide +kernel
/- streams with physical exergy: ambient 300, reference enthalpy 100, entropy 1/2 -/
def exI : ExStream ℚ := ⟨400, 2, 1000, 2, 300, 150, 0⟩
def exO : ExStream ℚ := ⟨350, 2, 850, 7 / 4, 250, 125, 0⟩
example : Spec.PhysEx 300 100 (1 / 2) exI ∧ Spec.PhysEx 300 100 (1 / 2) exO := by
  constructor <;> norm_num [Spec.PhysEx, exI, exO, ExStream.exPh]
/- two streams in balance: entropy production of the second 1, of the first -1/2 -/
def exI2 : ExStream ℚ := ⟨310, 1, 400, 1 / 2, 200, 100, 0⟩
def exO2 : ExStream ℚ := ⟨360, 1, 700, 3 / 2, 250, 50, 0⟩
example : Spec.PhysEx 300 100 (1 / 2) exI2 ∧ Spec.PhysEx 300 100 (1 / 2) exO2 ∧
    exI.m * (exO.h - exI.h) + exI2.m * (exO2.h - exI2.h) = 0 := by
  refine ⟨?_, ?_, ?_⟩ <;> norm_num [Spec.PhysEx, exI, exO, exI2, exO2, ExStream.exPh]
example : (hexExergy 300 exI exI2 exO exO2).ED = some 150 := by decide +kernel
/- a merge of a hot and a cold stream -/
example : (mergeExergy 300 [exA, exD] { exB with m := 4 }).ED = some 10 := by decide +kernel

/- simple heat exchangers: cooled above ambient (dissipative or not), heated, cold -/
example : (simpleHexExergy 300 (-100) true exA exB).ED = some 40 ∧
    (simpleHexExergy 300 (-100) false exA exB).ED = some 10 ∧
    (simpleHexExergy 300 100 false exB exA).ED = some (-10) ∧
    (simpleHexExergy 300 100 true exD exC).ED = some 14 ∧
    exD.T < 300 - 1 / 1000000 ∧ (300 : ℚ) < exA.T := by decide +kernel

/-- **C42 is false for merges at ambient temperature**: the destruction is not available although
all streams have exergies. -/
theorem C42_merge_ambient : (mergeExergy (350 : ℚ) [exA, exD] { exB with m := 4 }).ED = none ∧
    (mergeExergy (350 : ℚ) [exA, exD] { exB with m := 4 }).EF = some 130 := by
  decide +kernel

/-- **C42 is false for simple heat exchangers cooled across the ambient temperature**: with neither base
of the bus, and not without bus either, is the destruction the exergy balance. -/
theorem C42_simple_crossing_false :
    -- cooled from 400 to 290 around 300
    (simpleHexExergy (300 : ℚ) (-100) false exA exC).ED ≠ some (exA.ExPh - exC.ExPh) ∧
      (simpleHexExergy (300 : ℚ) (-100) false exA exC).ED
        ≠ nadd (some (exA.ExPh - exC.ExPh))
          (Spec.heatExergy true (simpleHexExergy 300 (-100) false exA exC)) ∧
      (simpleHexExergy (300 : ℚ) (-100) false exA exC).ED
        ≠ nadd (some (exA.ExPh - exC.ExPh))
          (Spec.heatExergy false (simpleHexExergy 300 (-100) false exA exC)) := by
  decide +kernel

/-- **C42 is false for cooling below ambient temperature**: the exergy received from the bus is
counted as product but not as fuel. -/
theorem C42_simple_refrigeration_false (T0 Q : K) (d : Bool) (i o : ExStream K) (hQ : Q < 0)
    (hi : i.T < T0) (ho : o.T < T0) :
    Spec.heatExergy true (simpleHexExergy T0 Q d i o) = some (o.ExT - i.ExT) ∧
      (simpleHexExergy T0 Q d i o).ED = some (i.ExPh - o.ExPh) := by
  have h1 : ¬ (T0 ≤ i.T ∧ T0 ≤ o.T) := fun h => absurd h.1 (not_le.2 hi)
  have h2 : ¬ (T0 ≤ i.T ∧ o.T < T0) := fun h => absurd h.1 (not_le.2 hi)
  have h3 : i.T ≤ T0 ∧ o.T ≤ T0 := ⟨hi.le, ho.le⟩
  constructor
  · simp [simpleHexExergy, if_pos hQ, if_neg h1, if_neg h2, if_pos h3, exCloseNan, exClose,
      Spec.heatExergy]
  · simp only [simpleHexExergy, if_pos hQ, if_neg h1, if_neg h2, if_pos h3, exCloseNan, exClose,
      nsub, exPh_split, Option.some.injEq]
    ring

/-- **C42 is false for electrolyzers**: the exergy of the inlet cooling flow is added to the product
instead of being subtracted, and the physical exergies of feed water and gases are missing. -/
theorem C42_electrolyzer (P : K) (i1 i2 o1 o2 o3 : ExStream K) :
    ∃ ED, (electrolyzerExergy P i1 i2 o1 o2 o3).ED = some ED ∧
      (P + (i1.ExPh + i2.ExPh + i2.ExC - o1.ExPh - o2.ExPh - o2.ExC - o3.ExPh - o3.ExC)) - ED
        = 2 * i1.ExPh + i2.ExPh - o2.ExPh - o3.ExPh := by
  refine ⟨_, rfl, ?_⟩
  ring

end Tespy
