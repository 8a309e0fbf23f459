import Mathlib.Data.List.Dedup
import Verif.Props.Balance
/-!
C85: what satisfied mandatory equations of throttles, heat exchangers, desuperheaters and combustion chambers mean, and
how many independent equations a merge has.
-/
namespace Tespy

namespace Spec
variable {K : Type} [CommRing K]

/-- pressure and enthalpy of two connections agree -/
def SameState (s : EqState K) (c d : Port) : Prop := s.pv c = s.pv d ∧ s.hv c = s.hv d

end Spec

section
variable {K : Type} [CommRing K]

/-- rows of constraints whose lengths match -/
theorem fillAll_matching (cs : List (Cons K)) (h : Spec.Matching cs) :
    fillAll cs = .ok (cs.flatMap (fun c => if c.1 > 0 then c.2.toList else [])) := by
  induction cs with
  | nil => rfl
  | cons c cs ih =>
    obtain ⟨n, r⟩ := c
    have hc := h (n, r) (by simp)
    have ih' := ih (fun c hc => h c (by simp [hc]))
    have hf : (if n > 0 then fillRows n r else .ok []) = .ok (if n > 0 then r.toList else []) := by
      by_cases hn : n > 0
      · simp only [if_pos hn]
        have hl : r.len = n := by
          rcases hc with hc | hc
          · simp only [] at hc; omega
          · exact hc
        cases r with
        | scalar x =>
          have : n = 1 := hl.symm
          subst this
          rfl
        | vec l => simp only [fillRows, Resid.toList]; rw [if_pos (show l.length = n from hl)]
      · simp only [if_neg hn]
    simp only [fillAll, hf, ih', List.flatMap_cons]

/-- solved means that all residuals of announced constraints are zero -/
theorem solved_iff (F : PropFuncs K) (s : EqState K) (d : Dev K) (cs : List (Cons K))
    (hc : d.constraints F s = .ok cs) (hm : Spec.Matching cs) :
    Spec.Solved F s d ↔ ∀ c ∈ cs, c.1 > 0 → ∀ x ∈ c.2.toList, x = 0 := by
  constructor
  · intro h c hmem hp
    exact solved_zero F s d h cs hc c hmem hp
  · intro h
    refine ⟨_, by simp only [Dev.rows, hc]; exact fillAll_matching cs hm, ?_⟩
    intro r hr
    obtain ⟨c, hcm, hr⟩ := List.mem_flatMap.mp hr
    by_cases hp : c.1 > 0
    · simp only [if_pos hp] at hr
      exact h c hcm hp r hr
    · simp [if_neg hp] at hr

theorem solved_regular (F : PropFuncs K) (s : EqState K) (d : Dev K) (cs : List (Cons K))
    (hc : d.constraints F s = .ok cs) (hd : d.irregular = false) :
    Spec.Solved F s d ↔ ∀ c ∈ cs, c.1 > 0 → ∀ x ∈ c.2.toList, x = 0 :=
  solved_iff F s d cs hc (C30_mandatory F s d hd cs hc)

/-- C85 (throttles and closers): a valve is solved exactly if its enthalpies agree, a cycle closer and every pair of a
subsystem interface exactly if pressures and enthalpies agree. -/
theorem C85_throttle (F : PropFuncs K) (s : EqState K) (i o : Port) (io : List (Port × Port)) :
    (Spec.Solved F s (.valve i o) ↔ s.hv i = s.hv o)
    ∧ (Spec.Solved F s (.cycleCloser i o) ↔ Spec.SameState s i o)
    ∧ (Spec.Solved F s (.subsystemInterface io) ↔ ∀ c ∈ io, Spec.SameState s c.1 c.2) := by
  refine ⟨?_, ?_, ?_⟩
  · rw [solved_regular F s (.valve i o) _ rfl rfl]
    simp [eqEnthalpy, Resid.toList, sub_eq_zero]
  · rw [solved_regular F s (.cycleCloser i o) _ rfl rfl]
    simp [eqEnthalpy, eqPressure, Resid.toList, sub_eq_zero, Spec.SameState]
  · rw [solved_regular F s (.subsystemInterface io) _ rfl rfl]
    simp only [List.mem_cons, List.not_mem_nil, or_false, forall_eq_or_imp, forall_eq, eqPressure, eqEnthalpy,
      Resid.toList, List.forall_mem_map, sub_eq_zero, Spec.SameState]
    cases io with
    | nil => simp
    | cons c io =>
      constructor
      · rintro ⟨h1, h2⟩ d hd
        exact ⟨h1 (by simp) d hd, h2 (by simp) d hd⟩
      · intro h
        exact ⟨fun _ d hd => (h d hd).1, fun _ d hd => (h d hd).2⟩

/-- C85 (heat exchangers): a heat exchanger is solved exactly if the energy flows agree; a desuperheater if in addition the hot
side leaves as saturated gas. (Inlet and outlet of a side share their mass flow.) -/
theorem C85_heat_exchanger (F : PropFuncs K) (s : EqState K) (i0 i1 o0 o1 : Port) (h0 : i0.m = o0.m) (h1 : i1.m = o1.m) :
    (Spec.Solved F s (.heatExchanger i0 i1 o0 o1) ↔ Spec.EnergyBalance s [i0, i1] [o0, o1])
    ∧ (Spec.Solved F s (.desuperheater i0 i1 o0 o1) ↔
      Spec.EnergyBalance s [i0, i1] [o0, o1] ∧ s.hv o0 = F.hPQ (s.xv o0) (s.pv o0) true) := by
  have hE : s.mv i0 * (s.hv o0 - s.hv i0) + s.mv i1 * (s.hv o1 - s.hv i1) = 0
      ↔ Spec.EnergyBalance s [i0, i1] [o0, o1] := by
    simp only [Spec.EnergyBalance, List.map_cons, List.map_nil, List.sum_cons, List.sum_nil, add_zero]
    have e0 : s.mv o0 = s.mv i0 := by simp only [EqState.mv, h0]
    have e1 : s.mv o1 = s.mv i1 := by simp only [EqState.mv, h1]
    rw [e0, e1]
    constructor <;> intro h <;> linear_combination -h
  constructor
  · rw [solved_regular F s (.heatExchanger i0 i1 o0 o1) _ rfl rfl]
    simp [hexEnergy, Resid.toList, hE]
  · rw [solved_regular F s (.desuperheater i0 i1 o0 o1) _ rfl rfl]
    simp [hexEnergy, desuperSat, Resid.toList, hE, sub_eq_zero]

/-- C85 (combustion): a combustion chamber is solved exactly if mass is conserved, all pressures agree, the balance of every fluid
at its connections and the energy balance hold. A diabatic combustion chamber only requires mass and fluid balances. -/
theorem C85_combustion (F : PropFuncs K) (s : EqState K) (i0 i1 o : Port) (stoich : EqState K → String → K)
    (energy : EqState K → K) :
    (Spec.Solved F s (.combustionChamber i0 i1 o stoich energy) ↔
      Spec.MassBalance s [i0, i1] [o] ∧ Spec.SamePressure s [i0, i1, o]
      ∧ (∀ c ∈ [i0, i1, o], ∀ f ∈ s.keys c.fl, stoich s f = 0) ∧ energy s = 0)
    ∧ (Spec.Solved F s (.diabaticCombustionChamber i0 i1 o stoich) ↔
      Spec.MassBalance s [i0, i1] [o] ∧ (∀ c ∈ [i0, i1, o], ∀ f ∈ s.keys c.fl, stoich s f = 0)) := by
  have hM : s.mv i0 + s.mv i1 - s.mv o = 0 ↔ Spec.MassBalance s [i0, i1] [o] := by
    simp [Spec.MassBalance, sub_eq_zero]
  have hP : (s.pv i0 = s.pv o ∧ s.pv i1 = s.pv o) ↔ Spec.SamePressure s [i0, i1, o] := by
    simp only [Spec.SamePressure, List.mem_cons, List.not_mem_nil, or_false, forall_eq_or_imp, forall_eq]
    constructor
    · rintro ⟨h1, h2⟩
      simp [h1, h2]
    · rintro ⟨⟨-, -, h1⟩, ⟨-, -, h2⟩, -⟩
      exact ⟨h1, h2⟩
  have hS : ∀ n : ℕ, n = (fluidSet ([i0, i1, o].map (fun c => s.keys c.fl))).length →
      ((n > 0 → ∀ x ∈ (fluidSet ([i0, i1, o].map (fun c => s.keys c.fl))).map (stoich s), x = 0)
        ↔ ∀ c ∈ [i0, i1, o], ∀ f ∈ s.keys c.fl, stoich s f = 0) := by
    rintro n rfl
    have hmem : ∀ f, f ∈ fluidSet ([i0, i1, o].map (fun c => s.keys c.fl)) ↔ ∃ c ∈ [i0, i1, o], f ∈ s.keys c.fl := by
      intro f
      simp [fluidSet, List.mem_dedup]
    constructor
    · intro h c hc f hf
      have hf' := (hmem f).mpr ⟨c, hc, hf⟩
      exact h (List.length_pos_of_mem hf') _ (List.mem_map.mpr ⟨f, hf', rfl⟩)
    · intro h _ x hx
      obtain ⟨f, hf, rfl⟩ := List.mem_map.mp hx
      obtain ⟨c, hc, hf⟩ := (hmem f).mp hf
      exact h c hc f hf
  constructor
  · rw [solved_regular F s (.combustionChamber i0 i1 o stoich energy) _ rfl rfl]
    simp only [List.mem_cons, List.not_mem_nil, or_false, forall_eq_or_imp, forall_eq, combMass, combPressure,
      Resid.toList, sub_eq_zero, Nat.lt_add_one, true_imp_iff, gt_iff_lt, Nat.zero_lt_two, zero_lt_one]
    have := hS _ rfl
    simp only [List.mem_cons, List.not_mem_nil, or_false, forall_eq_or_imp, forall_eq] at this hP
    rw [← hP, ← hM, sub_eq_zero]
    constructor
    · rintro ⟨a, b, c, d⟩
      exact ⟨a, b, this.mp c, d⟩
    · rintro ⟨a, b, c, d⟩
      exact ⟨a, b, this.mpr c, d⟩
  · rw [solved_regular F s (.diabaticCombustionChamber i0 i1 o stoich) _ rfl rfl]
    simp only [List.mem_cons, List.not_mem_nil, or_false, forall_eq_or_imp, forall_eq, combMass,
      Resid.toList, sub_eq_zero, true_imp_iff, gt_iff_lt, zero_lt_one]
    have := hS _ rfl
    simp only [List.mem_cons, List.not_mem_nil, or_false, forall_eq_or_imp, forall_eq] at this
    rw [← hM, sub_eq_zero]
    constructor
    · rintro ⟨a, c⟩
      exact ⟨a, this.mp c⟩
    · rintro ⟨a, c⟩
      exact ⟨a, this.mpr c⟩

/-! ### the equations of a merge -/

/-- C85 (merge, number of equations): with variable fluids one equation for the mass, one for each variable fluid, one for the energy and
one for each inlet; without, one for each fluid, one for the energy and one for each inlet. -/
theorem C85_merge_count (F : PropFuncs K) (s : EqState K) (i0 : Port) (inl : List Port) (o : Port)
    (hk : ∀ i ∈ i0 :: inl, s.keys i.fl = s.keys o.fl) :
    (Dev.merge i0 inl o).announced F s = .ok (
      (if (varSet s (i0 :: inl ++ [o])).length = 0 then (s.keys o.fl).length
       else 1 + (varSet s (i0 :: inl ++ [o])).length) + 1 + (i0 :: inl).length) := by
  simp only [Dev.announced, Dev.constraints, mergeFluid_ok s (i0 :: inl) o hk, hk i0 (by simp)]
  congr 1
  generalize (varSet s (i0 :: inl ++ [o])).length = v
  by_cases h : v = 0 <;> simp only [h, if_true, if_false, List.map_cons, List.map_nil, List.sum_cons, List.sum_nil,
    List.length_cons, List.length_nil] <;> omega

/-- C85 (merge of a pure fluid): without variable fluids, a merge of a pure fluid has one equation besides energy and pressures, which is the
mass balance: the equations are independent of each other. -/
theorem C85_merge_pure (F : PropFuncs K) (s : EqState K) (i0 : Port) (inl : List Port) (o : Port) (f : String)
    (hf : ∀ c ∈ i0 :: inl ++ [o], s.keys c.fl = [f] ∧ s.xv c f = 1)
    (hv : varSet s (i0 :: inl ++ [o]) = []) :
    (Dev.merge i0 inl o).announced F s = .ok (1 + 1 + (i0 :: inl).length)
    ∧ ∃ x rest, (Dev.merge i0 inl o).rows F s = .ok (x :: rest) ∧ x = ((i0 :: inl).map s.mv).sum - s.mv o
      ∧ rest.length = 1 + (i0 :: inl).length := by
  have hk : ∀ i ∈ i0 :: inl, s.keys i.fl = s.keys o.fl := by
    intro i hi
    rw [(hf i (by simp only [List.mem_append]; exact .inl hi)).1, (hf o (by simp)).1]
  have hko := (hf o (by simp)).1
  constructor
  · rw [C85_merge_count F s i0 inl o hk, hv, hko]; simp
  · have hcs : (Dev.merge i0 inl o).constraints F s = .ok [(0, nodeMass s (i0 :: inl) [o]),
        (1, .vec [(i0 :: inl).foldl (fun r i => r + s.xv i f * s.mv i) (-(s.xv o f) * s.mv o)]),
        (1, mergeEnergy s (i0 :: inl) o),
        ((i0 :: inl).length + [o].length - 1, nodePressure s i0 inl [o])] := by
      simp only [Dev.constraints, mergeFluid_ok s (i0 :: inl) o hk, hv, hko, (hf i0 (by simp)).1, List.length_nil,
        if_true, List.map_cons, List.map_nil, List.length_cons]
    have hM : Spec.Matching [(0, nodeMass s (i0 :: inl) [o]),
        (1, .vec [(i0 :: inl).foldl (fun r i => r + s.xv i f * s.mv i) (-(s.xv o f) * s.mv o)]),
        (1, mergeEnergy s (i0 :: inl) o),
        ((i0 :: inl).length + [o].length - 1, nodePressure s i0 inl [o])] := by
      unfold Spec.Matching
      simp [Resid.len, mergeEnergy, nodePressure]
    refine ⟨_, _, by simp only [Dev.rows, hcs]; rw [fillAll_matching _ hM]; rfl, ?_, ?_⟩
    · rw [foldl_add_map]
      have : (i0 :: inl).map (fun i => s.xv i f * s.mv i) = (i0 :: inl).map s.mv := by
        refine List.map_congr_left (fun i hi => ?_)
        rw [(hf i (by simp only [List.mem_append]; exact .inl hi)).2, one_mul]
      rw [this, (hf o (by simp)).2]
      ring
    · simp [mergeEnergy, nodePressure, Resid.toList]
      omega

/-- C85 is false for merges of mixtures with one specified composition at all connections: the equations of any two fluids are
proportional for all states, so a network with such a merge has dependent rows, and more equations than
independent ones by the number of fluids minus one. -/
theorem C85_merge_same_composition_false (s : EqState K) (inl : List Port) (o : Port)
    (x : String → K) (hk : ∀ i ∈ inl, s.keys i.fl = s.keys o.fl) (hx : ∀ c ∈ inl ++ [o], ∀ f, s.xv c f = x f) :
    ∃ b : K, b = (inl.map s.mv).sum - s.mv o
      ∧ mergeFluid s inl o = .ok (.vec ((s.keys o.fl).map (fun f => x f * b))) := by
  refine ⟨_, rfl, ?_⟩
  rw [mergeFluid_ok s inl o hk]
  congr 2
  refine List.map_congr_left (fun f _ => ?_)
  rw [foldl_add_map]
  have : inl.map (fun i => s.xv i f * s.mv i) = inl.map (fun i => x f * s.mv i) :=
    List.map_congr_left (fun i hi => by rw [hx i (by simp [hi]) f])
  rw [this, hx o (by simp) f, List.sum_map_mul_left]
  ring

end

/-! ### Examples -/

/-- 2 kg/s cooled from 20 to 10 (saturated gas at 9 with `exProps`), 5 kg/s heated from 3 to 7. -/
def exDesup : EqState ℚ :=
  exState (fun i => if i = 0 then 2 else 5) (fun _ => 9)
    (fun i => if i = 0 then 20 else if i = 1 then 3 else if i = 2 then 10 else 7) (fun _ _ => 1) (fun _ => ["H2O"])
    (fun _ => []) (fun _ => true)

example : Spec.Solved exProps exDesup (.desuperheater (port 0) (port 1) ⟨0, 2, 2, 2⟩ ⟨1, 3, 3, 3⟩) :=
  ⟨[0, 0], by decide +kernel, by simp⟩

/-- `C85_combustion`: two streams of 1 kg/s and one of 2 kg/s at one pressure, a balance with value 0. -/
example : Spec.Solved exProps (exState (fun i => if i = 2 then 2 else 1) (fun _ => 9) (fun _ => 3) (fun _ _ => 1)
    (fun _ => ["N2", "O2"]) (fun _ => []) (fun _ => true))
    (.combustionChamber (port 0) (port 1) (port 2) (fun s f => s.xv (port 0) f - s.xv (port 2) f)
      (fun s => s.hv (port 0) - s.hv (port 2))) :=
  ⟨[0, 0, 0, 0, 0, 0], by decide +kernel, by simp⟩

/-- Two streams of air, composition specified at all connections. -/
def exAirMerge : EqState ℚ :=
  exState (fun i => if i = 2 then 4 else if i = 1 then 3 else 1) (fun _ => 5) (fun _ => 1)
    (fun _ f => if f = "N2" then 3 / 4 else 1 / 4) (fun _ => ["N2", "O2"]) (fun _ => []) (fun _ => true)

/-- `C85_merge_count` and `C85_merge_same_composition_false` apply: 5 equations, 4 of them independent; with one fluid (`C85_merge_pure`) 4. -/
example : (Dev.merge (port 0) [port 1] (port 2)).announced exProps exAirMerge = .ok 5
    ∧ (∀ i ∈ [port 0, port 1], exAirMerge.keys i.fl = exAirMerge.keys (port 2).fl)
    ∧ (∀ c ∈ [port 0, port 1] ++ [port 2], ∀ f, exAirMerge.xv c f = if f = "N2" then 3 / 4 else 1 / 4)
    ∧ varSet exAirMerge [port 0, port 1, port 2] = [] := by
  refine ⟨by decide +kernel, by decide +kernel, ?_, by decide +kernel⟩
  intro c _ f
  rfl

example : varSet exDesup [port 0, port 1, port 2] = []
    ∧ ∀ c ∈ [port 0, port 1, port 2], exDesup.keys c.fl = ["H2O"] ∧ exDesup.xv c "H2O" = 1 := by
  decide +kernel

end Tespy
