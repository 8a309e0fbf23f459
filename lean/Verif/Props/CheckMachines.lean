import Mathlib.Algebra.BigOperators.Group.List.Basic
import Mathlib.Algebra.BigOperators.Ring.List
import Mathlib.Algebra.Order.BigOperators.Group.List
import Mathlib.Tactic.FieldSimp
import Verif.Props.CheckLimits
/-
C71: order of pressures and enthalpies at turbomachines after their check; C72: composition and fuel
mass flow after the check of a combustion.
-/
namespace Tespy
variable {K : Type} [Field K] [LinearOrder K]

/-! ### C71 -/

theorem adjust_get (E : ChkEnv K) (c d : ChkConn K) (k k' : PropKind) (cond : ChkState K → Bool)
    (value : ChkState K → K) (s : ChkState K) :
    (adjust E c k cond value s).1.get d k' =
      if (E.var c k = true ∧ cond s = true) ∧ k' = k ∧ d.box k = c.box k then value s else s.get d k' := by
  simp only [adjust]
  split
  · next h =>
    by_cases h2 : k' = k ∧ d.box k = c.box k
    · obtain ⟨rfl, h3⟩ := h2
      rw [if_pos ⟨h, rfl, h3⟩]
      simp [ChkState.get, ChkState.put, h3]
    · rw [if_neg (fun h' => h2 h'.2)]
      apply get_put_ne
      by_cases h3 : k' = k
      · subst h3
        exact Or.inr (fun h4 => h2 ⟨rfl, h4⟩)
      · exact Or.inl h3
  · next h => rw [if_neg (fun h' => h h'.1)]

theorem adjust_ok (E : ChkEnv K) (c : ChkConn K) (k : PropKind) (cond : ChkState K → Bool)
    (value : ChkState K → K) (s : ChkState K) : (adjust E c k cond value s).2 = none := by
  simp only [adjust]; split <;> rfl

theorem andThen_of_ok {a b : ChkStep K} {s : ChkState K} (h : (a s).2 = none) : a.andThen b s = b (a s).1 := by
  simp only [ChkStep.andThen]
  rcases ha : a s with ⟨s1, _ | e⟩
  · rfl
  · rw [ha] at h; cases h

/-- one quantity at inlet and outlet of a machine whose connections have containers of their own -/
structure Spec.Machine (i o : ChkConn K) : Prop where
  p : i.box .p ≠ o.box .p
  h : i.box .h ≠ o.box .h

/-- C71, compressor: after the check pressure and enthalpy at the outlet are not below those at the inlet,
for every quantity which is positive before and a variable at the inlet or at the outlet. -/
theorem C71_compressor_partial [IsStrictOrderedRing K] (E : ChkEnv K) (i o : ChkConn K) (hm : Spec.Machine i o)
    (s : ChkState K) (k : PropKind) (hk : k ≠ .m) (hv : E.var i k = true ∨ E.var o k = true)
    (hi : 0 ≤ s.get i k) (ho : 0 ≤ s.get o k) :
    (compressorCheck E i o s).2 = none ∧
    (compressorCheck E i o s).1.get i k ≤ (compressorCheck E i o s).1.get o k := by
  have h1 := hm.p
  have h2 := hm.h
  have h3 := Ne.symm h1
  have h4 := Ne.symm h2
  simp only [compressorCheck]
  rw [andThen_of_ok (adjust_ok ..), andThen_of_ok (adjust_ok ..), andThen_of_ok (adjust_ok ..)]
  refine ⟨adjust_ok .., ?_⟩
  cases k with
  | m => exact absurd rfl hk
  | p =>
    simp only [adjust_get, h1, h2, h3, h4, reduceCtorEq, false_and, and_false, if_false, and_true, true_and, decide_eq_true_eq]
    rcases hv with hv | hv <;> simp only [hv] <;> split_ifs <;> simp_all <;> linarith
  | h =>
    simp only [adjust_get, h1, h2, h3, h4, reduceCtorEq, false_and, and_false, if_false, and_true, true_and, decide_eq_true_eq]
    rcases hv with hv | hv <;> simp only [hv] <;> split_ifs <;> simp_all <;> linarith

/-- C71, turbine: after the check pressure and enthalpy at the outlet are not above those at the inlet, if
they are variables at the outlet and positive at the inlet. -/
theorem C71_turbine_partial [IsStrictOrderedRing K] (E : ChkEnv K) (i o : ChkConn K) (hm : Spec.Machine i o)
    (s : ChkState K) (k : PropKind) (hk : k ≠ .m) (hv : E.var o k = true) (hi : 0 ≤ s.get i k) :
    (turbineCheck E i o s).2 = none ∧
    (turbineCheck E i o s).1.get o k ≤ (turbineCheck E i o s).1.get i k := by
  have h1 := hm.p
  have h2 := hm.h
  have h3 := Ne.symm h1
  have h4 := Ne.symm h2
  have key : ∀ s : ChkState K, 0 ≤ s.get i k → ∀ r, r = ((adjust E o .h (fun s => s.get i .h ≤ s.get o .h) (fun s => s.get i .h * (9 / 10))).andThen
      (adjust E o .p (fun s => s.get i .p ≤ s.get o .p) (fun s => s.get i .p * (9 / 10)))) s →
      r.2 = none ∧ r.1.get o k ≤ r.1.get i k := by
    rintro s hi r rfl
    rw [andThen_of_ok (adjust_ok ..)]
    refine ⟨adjust_ok .., ?_⟩
    cases k with
    | m => exact absurd rfl hk
    | p =>
      simp only [adjust_get, h1, h2, h3, h4, hv, reduceCtorEq, false_and, and_false, if_false, and_true, true_and, decide_eq_true_eq]
      split_ifs <;> linarith
    | h =>
      simp only [adjust_get, h1, h2, h3, h4, hv, reduceCtorEq, false_and, and_false, if_false, and_true, true_and, decide_eq_true_eq]
      split_ifs <;> linarith
  simp only [turbineCheck]
  split
  · exact key s hi _ rfl
  · have hok : ((adjust E i .p (fun s => s.get i .p ≤ 100000) (fun _ => 100000)).andThen
        ((adjust E i .h (fun s => s.get i .h < 1000000) (fun _ => 1000000)).andThen
          (adjust E o .h (fun s => s.get o .h < 500000) (fun _ => 500000))) s).2 = none := by
      rw [andThen_of_ok (adjust_ok ..), andThen_of_ok (adjust_ok ..)]
      exact adjust_ok ..
    rw [andThen_of_ok hok]
    refine key _ ?_ _ rfl
    rw [andThen_of_ok (adjust_ok ..), andThen_of_ok (adjust_ok ..)]
    cases k with
    | m => exact absurd rfl hk
    | p =>
      simp only [adjust_get, h1, h2, h3, h4, reduceCtorEq, false_and, and_false, if_false, and_true, true_and, decide_eq_true_eq]
      split_ifs <;> linarith
    | h =>
      simp only [adjust_get, h1, h2, h3, h4, reduceCtorEq, false_and, and_false, if_false, and_true, true_and, decide_eq_true_eq]
      split_ifs <;> linarith

/-- C71, pump: after the check pressure and enthalpy at the outlet are not below those at the inlet for every
quantity which is positive before and a variable at the *inlet*. -/
theorem C71_pump_partial [IsStrictOrderedRing K] (E : ChkEnv K) (i o : ChkConn K) (hm : Spec.Machine i o)
    (s : ChkState K) (k : PropKind) (hk : k ≠ .m) (hv : E.var i k = true) (ho : 0 ≤ s.get o k) :
    (pumpCheck E i o none s).2 = none ∧
    (pumpCheck E i o none s).1.get i k ≤ (pumpCheck E i o none s).1.get o k := by
  have h1 := hm.p
  have h2 := hm.h
  have h3 := Ne.symm h1
  have h4 := Ne.symm h2
  have hok : (pumpOrder E i o s).2 = none := by
    simp only [pumpOrder]
    rw [andThen_of_ok (adjust_ok ..), andThen_of_ok (adjust_ok ..), andThen_of_ok (adjust_ok ..)]
    exact adjust_ok ..
  simp only [pumpCheck]
  rw [andThen_of_ok hok]
  refine ⟨rfl, ?_⟩
  change (pumpOrder E i o s).1.get i k ≤ (pumpOrder E i o s).1.get o k
  simp only [pumpOrder]
  rw [andThen_of_ok (adjust_ok ..), andThen_of_ok (adjust_ok ..), andThen_of_ok (adjust_ok ..)]
  cases k with
  | m => exact absurd rfl hk
  | p =>
    simp only [adjust_get, h1, h2, h3, h4, hv, reduceCtorEq, false_and, and_false, if_false, and_true, true_and, decide_eq_true_eq]
    split_ifs <;> simp_all <;> linarith
  | h =>
    simp only [adjust_get, h1, h2, h3, h4, hv, reduceCtorEq, false_and, and_false, if_false, and_true, true_and, decide_eq_true_eq]
    split_ifs <;> simp_all <;> linarith

/-- C71: values in the right order are not changed by the checks of compressors, pumps without
characteristic and turbines with values of a former calculation (for the turbine: strictly). -/
theorem C71_unchanged (E : ChkEnv K) (i o : ChkConn K) (s : ChkState K) :
    ((∀ k, k ≠ .m → s.get i k ≤ s.get o k) →
      compressorCheck E i o s = (s, none) ∧ pumpCheck E i o none s = (s, none)) ∧
    ((∀ k, k ≠ .m → s.get o k < s.get i k) → i.good = true → turbineCheck E i o s = (s, none)) := by
  refine ⟨fun h => ?_, fun h hg => ?_⟩
  · have hp := not_lt.mpr (h .p (by decide))
    have hh := not_lt.mpr (h .h (by decide))
    have a1 : ∀ c k v, adjust E c k (fun s => decide (s.get o .p < s.get i .p)) v s = (s, none) := by
      intro c k v; simp [adjust, hp]
    have a2 : ∀ c k v, adjust E c k (fun s => decide (s.get o .h < s.get i .h)) v s = (s, none) := by
      intro c k v; simp [adjust, hh]
    constructor
    · simp only [compressorCheck, ChkStep.andThen, a1, a2]
    · simp only [pumpCheck, pumpOrder, ChkStep.andThen, a1, a2, ChkStep.skip]
  · have hp := not_le.mpr (h .p (by decide))
    have hh := not_le.mpr (h .h (by decide))
    have a1 : ∀ c k v, adjust E c k (fun s => decide (s.get i .p ≤ s.get o .p)) v s = (s, none) := by
      intro c k v; simp [adjust, hp]
    have a2 : ∀ c k v, adjust E c k (fun s => decide (s.get i .h ≤ s.get o .h)) v s = (s, none) := by
      intro c k v; simp [adjust, hh]
    simp only [turbineCheck, hg, ChkStep.andThen, a1, a2, ChkStep.skip, if_true]

/-- connections 0 (inlet) and 2 (outlet) of a machine, all quantities variable -/
def machineState (i o : ℚ) : ChkState ℚ := ⟨fun _ n => if n = 0 then i else o, fun _ _ => 1⟩

-- non-vacuity: wrong order before the check
example : Spec.Machine (demoConn 0) (demoConn 2) ∧
    (compressorCheck demoEnv (demoConn 0) (demoConn 2) (machineState 20 10)).1.get (demoConn 2) .p = 22 ∧
    (pumpCheck demoEnv (demoConn 0) (demoConn 2) none (machineState 20 10)).1.get (demoConn 0) .h = 99 / 10 ∧
    (turbineCheck demoEnv (demoConn 0) (demoConn 2) (machineState 200000 300000)).1.get (demoConn 2) .p = 180000 := by
  refine ⟨⟨by decide, by decide⟩, ?_⟩
  decide +kernel

/-- C71, compressor with negative enthalpies: the check enlarges the violation. -/
theorem C71_compressor_false : ∃ (E : ChkEnv ℚ) (i o : ChkConn ℚ) (s : ChkState ℚ), E.var o .h = true ∧
    E.var i .h = false ∧ (compressorCheck E i o s).1.get o .h < s.get o .h ∧
    s.get o .h < (compressorCheck E i o s).1.get i .h :=
  ⟨demoEnv, demoConn 1, demoConn 0, ⟨fun _ n => if n = 1 then -100 else -101, fun _ _ => 1⟩, by decide +kernel⟩

/-- C71, pump with a specified inlet pressure: after the check the outlet pressure is still below the inlet
pressure (the outlet pressure is only doubled). -/
theorem C71_pump_false : ∃ (E : ChkEnv ℚ) (i o : ChkConn ℚ) (s : ChkState ℚ), Spec.Machine i o ∧ E.var o .p = true ∧
    E.var i .p = false ∧ 0 < s.get i .p ∧ 0 < s.get o .p ∧
    (pumpCheck E i o none s).1.get o .p < (pumpCheck E i o none s).1.get i .p :=
  ⟨demoEnv, demoConn 1, demoConn 0, ⟨fun _ n => if n = 1 then 10 else 1, fun _ _ => 1⟩,
    ⟨by decide, by decide⟩, by decide +kernel⟩

/-- C71, turbine with specified outlet: a variable inlet in the wrong order is not corrected. -/
theorem C71_turbine_false : ∃ (E : ChkEnv ℚ) (i o : ChkConn ℚ) (s : ChkState ℚ), Spec.Machine i o ∧ i.good = true ∧
    E.var i .p = true ∧ E.var i .h = true ∧ E.var o .p = false ∧ 0 < s.get i .p ∧
    turbineCheck E i o s = (s, none) ∧ s.get i .p < s.get o .p ∧ s.get i .h < s.get o .h := by
  refine ⟨demoEnv, { demoConn 0 with good := true }, demoConn 1, ⟨fun _ n => if n = 1 then 10 else 1, fun _ _ => 1⟩,
    ⟨by decide, by decide⟩, rfl, by decide +kernel, by decide +kernel, by decide +kernel, by decide +kernel, ?_,
    by decide +kernel, by decide +kernel⟩
  simp [turbineCheck, ChkStep.andThen, ChkStep.skip, adjust, ChkEnv.var, demoEnv, demoConn]

/-- C71, pump with characteristic: a volumetric flow inside of the characteristic, between its first two
support points, is not left as it is but set to the first support point. -/
theorem C71_pump_flow_false : ∃ (E : ChkEnv ℚ) (i o : ChkConn ℚ) (vol : ChkState ℚ → PyRes ℚ) (x : List ℚ) (s : ChkState ℚ),
    (∀ k, k ≠ PropKind.m → s.get i k ≤ s.get o k) ∧ vol s = .ok 1 ∧ x = [0, 10, 20] ∧ s.get i .m = 9 ∧
    (pumpCheck E i o (some (vol, x)) s).2 = none ∧ (pumpCheck E i o (some (vol, x)) s).1.get i .m = 0 :=
  ⟨demoEnv, demoConn 0, demoConn 2, fun _ => .ok 1, [0, 10, 20], ⟨fun _ _ => 9, fun _ _ => 1⟩,
    fun _ _ => le_refl _, rfl, rfl, by decide +kernel, by decide +kernel, by decide +kernel⟩

/-! ### C72 -/

theorem checkMass_frac (E : ChkEnv K) (inl : List (ChkConn K)) (s : ChkState K) : (checkMass E inl s).1.frac = s.frac := by
  induction inl generalizing s with
  | nil => rfl
  | cons i inl ih =>
    simp only [checkMass]
    rw [ih]
    split <;> rfl

/-- mass flows of the inlets are not negative after the first loop and their sum is as reported -/
theorem checkMass_nonneg [IsStrictOrderedRing K] (E : ChkEnv K) (inl all : List (ChkConn K)) (hsub : ∀ i ∈ inl, i ∈ all)
    (s : ChkState K) (hs : ∀ i ∈ all, i ∉ inl → 0 ≤ s.get i .m)
    (hfix : ∀ i ∈ all, E.var i .m = false → 0 ≤ s.get i .m) :
    (∀ i ∈ all, 0 ≤ (checkMass E inl s).1.get i .m) ∧ 0 ≤ (checkMass E inl s).2 := by
  induction inl generalizing s with
  | nil => exact ⟨fun i hi => hs i hi (by simp), le_refl _⟩
  | cons i inl ih =>
    simp only [checkMass]
    have hi : 0 ≤ (if s.get i .m < 0 ∧ E.var i .m = true then s.put i .m (1 / 100) else s).get i .m := by
      split
      · rw [get_put_self]; positivity
      · next h =>
        by_cases hv : E.var i .m = true
        · exact not_lt.mp (fun h' => h ⟨h', hv⟩)
        · exact hfix i (hsub i (by simp)) (by simpa using hv)
    have hmono : ∀ j, 0 ≤ s.get j .m →
        0 ≤ (if s.get i .m < 0 ∧ E.var i .m = true then s.put i .m (1 / 100) else s).get j .m := by
      intro j hj
      split
      · by_cases hb : j.box .m = i.box .m
        · simp only [ChkState.get, ChkState.put, hb]
          norm_num
        · rw [get_put_ne s i j _ _ _ (Or.inr hb)]; exact hj
      · exact hj
    generalize (if s.get i .m < 0 ∧ E.var i .m = true then s.put i .m (1 / 100) else s) = s1 at hi hmono
    obtain ⟨g1, g2⟩ := ih (fun j hj => hsub j (by simp [hj])) s1
      (fun j hj hn => by
        by_cases hji : j = i
        · rw [hji]; exact hi
        · exact hmono j (hs j hj (by simp [hji, hn])))
      (fun j hj hv => hmono j (hfix j hj hv))
    exact ⟨g1, by linarith⟩

theorem combFrac_nonneg [IsStrictOrderedRing K] (F : CombFluids K) (inl : List (ChkConn K)) (m : K) (s : ChkState K)
    (f : String) (x y : K) (hx : 0 ≤ x) (hm : 0 ≤ m) (hmi : ∀ i ∈ inl, 0 ≤ s.get i .m) (hfr : ∀ i g, 0 ≤ s.frac i g)
    (h : combFrac F inl m s f x = some y) : 0 ≤ y := by
  simp only [combFrac, keepWithin] at h
  have hsum : 0 ≤ (inl.map (fun i => s.frac i.fid f * s.get i .m)).sum := by
    apply List.sum_nonneg
    intro z hz
    obtain ⟨i, hi, rfl⟩ := List.mem_map.mp hz
    exact mul_nonneg (hfr _ _) (hmi i hi)
  have hdiv : 0 ≤ (inl.map (fun i => s.frac i.fid f * s.get i .m)).sum / m := div_nonneg hsum hm
  split_ifs at h <;> first | (cases h; first | assumption | positivity) | cases h

theorem forEach_comb [IsStrictOrderedRing K] (F : CombFluids K) (inl : List (ChkConn K)) (m : K) (o : ChkConn K)
    (fs : List String) (s : ChkState K) (hm : 0 ≤ m) (hmi : ∀ i ∈ inl, 0 ≤ s.get i .m) (hfr : ∀ i g, 0 ≤ s.frac i g) :
    (∀ i g, 0 ≤ (ChkStep.forEach (combFluid F inl m o) fs s).1.frac i g) := by
  induction fs generalizing s with
  | nil => exact hfr
  | cons f fs ih =>
    simp only [ChkStep.forEach, ChkStep.andThen]
    rcases hc : combFluid F inl m o f s with ⟨s1, _ | e⟩
    · simp only [combFluid] at hc
      cases hy : combFrac F inl m s f (s.frac o.fid f) with
      | none => rw [hy] at hc; cases hc
      | some y =>
        rw [hy] at hc
        simp only [Prod.mk.injEq, and_true] at hc
        subst hc
        refine ih _ hmi ?_
        intro i g
        simp only [ChkState.putFrac]
        split
        · exact combFrac_nonneg F inl m s f _ y (hfr _ _) hm hmi hfr hy
        · exact hfr i g
    · simp only [combFluid] at hc
      cases hy : combFrac F inl m s f (s.frac o.fid f) with
      | none => rw [hy] at hc; cases hc; exact hfr
      | some y => rw [hy] at hc; cases hc

/-- steps after the normalisation do not change compositions -/
theorem adjust_frac (E : ChkEnv K) (c : ChkConn K) (k : PropKind) (cond : ChkState K → Bool)
    (value : ChkState K → K) (s : ChkState K) : (adjust E c k cond value s).1.frac = s.frac := by
  simp only [adjust]; split <;> rfl

theorem fuelGuess_frac (E : ChkEnv K) (F : CombFluids K) (inl : List (ChkConn K)) (s : ChkState K) :
    (fuelGuess E F inl s).1.frac = s.frac := by
  simp only [fuelGuess]
  cases F.lamb with
  | none => rfl
  | some l =>
    simp only
    split
    · generalize fuelSearch E F s inl (false, none, none) = r
      obtain ⟨_ | _, _ | i, _ | air⟩ := r <;> rfl
    · rfl

/-- C72: after the check of a combustion the mass fractions of the flue gas are not negative and their sum
is one. Assumptions: no negative mass fractions before, no negative specified mass flow at an inlet, all
fluids of the flue gas are variable and the check ends without exception. -/
theorem C72_valid_partial [IsStrictOrderedRing K] (E : ChkEnv K) (F : CombFluids K) (inl : List (ChkConn K)) (o : ChkConn K)
    (s : ChkState K) (hfr : ∀ i f, 0 ≤ s.frac i f) (hfix : ∀ i ∈ inl, E.var i .m = false → 0 ≤ s.get i .m)
    (hvar : ∀ f, f ∈ E.fluids o.fid ↔ f ∈ E.fvar o.fid) (hne : E.fluids o.fid ≠ [])
    (hok : (combustionCheck E F inl o s).2 = none) :
    (∀ f, 0 ≤ (combustionCheck E F inl o s).1.frac o.fid f) ∧
    ((E.fluids o.fid).map ((combustionCheck E F inl o s).1.frac o.fid)).sum = 1 := by
  obtain ⟨m1, m2⟩ := checkMass_nonneg E inl inl (fun _ h => h) s (fun i h h' => absurd h h') hfix
  have hf0 := checkMass_frac E inl s
  simp only [combustionCheck] at hok ⊢
  generalize checkMass E inl s = r at hok m1 m2 hf0
  obtain ⟨a1, a2, a3⟩ := andThen_ok hok
  obtain ⟨b1, b2, b3⟩ := andThen_ok a2
  rw [a3, b3, andThen_of_ok (adjust_ok ..)]
  have hadj : ∀ s', ((if o.good = true then ChkStep.skip else
      adjust E o .h (fun s => decide (s.get o .h < 750000)) (fun _ => 1000000)) s').2 = none := by
    intro s'
    split
    · rfl
    · exact adjust_ok ..
  have hadj' : ∀ s', ((if o.good = true then ChkStep.skip else
      adjust E o .h (fun s => decide (s.get o .h < 750000)) (fun _ => 1000000)) s').1.frac = s'.frac := by
    intro s'
    split
    · rfl
    · exact adjust_frac ..
  rw [andThen_of_ok (hadj _), fuelGuess_frac, hadj', adjust_frac]
  have hn := forEach_comb F inl r.2 o (E.fvar o.fid) r.1 m2 m1 (by rw [hf0]; exact hfr)
  generalize (ChkStep.forEach (combFluid F inl r.2 o) (E.fvar o.fid) r.1).1 = s2 at hn b1
  have hne' : E.fvar o.fid ≠ [] := by
    intro h
    obtain ⟨f, hf⟩ := List.exists_mem_of_ne_nil _ hne
    rw [hvar f, h] at hf
    cases hf
  simp only [normaliseFluids, if_neg hne'] at b1 ⊢
  split at b1
  · cases b1
  · next h0 =>
    rw [if_neg h0]
    have hpos : 0 ≤ ((E.fluids o.fid).map (s2.frac o.fid)).sum :=
      List.sum_nonneg (fun z hz => by obtain ⟨f, _, rfl⟩ := List.mem_map.mp hz; exact hn _ _)
    constructor
    · intro f
      simp only
      split
      · exact div_nonneg (hn _ _) hpos
      · exact hn _ _
    · have : (E.fluids o.fid).map (fun f => if True ∧ f ∈ E.fvar o.fid then
            s2.frac o.fid f / ((E.fluids o.fid).map (s2.frac o.fid)).sum else s2.frac o.fid f) =
          (E.fluids o.fid).map (fun f => s2.frac o.fid f * (((E.fluids o.fid).map (s2.frac o.fid)).sum)⁻¹) := by
        apply List.map_congr_left
        intro f hf
        rw [if_pos ⟨trivial, (hvar f).mp hf⟩, div_eq_mul_inv]
      simp only
      rw [this, List.sum_map_mul_right]
      exact mul_inv_cancel₀ h0

/-- air (connection 0), fuel (connection 3) and flue gas (connection 2) of a combustion chamber -/
def combEnv : ChkEnv ℚ where
  isVar := fun _ i => i ≠ 1
  fluids := fun _ => ["CH4", "CO2", "H2O", "N2", "O2"]
  fvar := fun i => if i = 2 then ["CH4", "CO2", "H2O", "N2", "O2"] else []
  single := fun _ _ => none
  mixRange := fun _ _ => .error .valueError
  range := fun _ => (-1000, 1000)

def combFl : CombFluids ℚ := ⟨"O2", "CO2", "H2O", ["CH4"], some (3 / 2), false⟩

def combState : ChkState ℚ where
  val := fun k i => match k, i with
    | .m, 0 => 25
    | .m, 3 => 10
    | _, _ => 1
  frac := fun i f => match i, f with
    | 0, "N2" => 3 / 4
    | 0, "O2" => 1 / 4
    | 2, "N2" => 1
    | 2, "CH4" => 1 / 10
    | 3, "CH4" => 1
    | _, _ => 0

-- non-vacuity: air before fuel, composition and fuel mass flow are corrected
example : (combustionCheck combEnv combFl [demoConn 0, demoConn 3] (demoConn 2) combState).2 = none ∧
    (combustionCheck combEnv combFl [demoConn 0, demoConn 3] (demoConn 2) combState).1.frac 2 "N2" = 15 / 28 / (9 / 100 + 15 / 28) ∧
    (combustionCheck combEnv combFl [demoConn 0, demoConn 3] (demoConn 2) combState).1.get (demoConn 3) .m = 1 := by
  decide +kernel

/-- C72, order of the inlets: with the fuel at the first inlet the fuel mass flow is not corrected. -/
theorem C72_order_false : ∃ (E : ChkEnv ℚ) (F : CombFluids ℚ) (air fuel o : ChkConn ℚ) (s : ChkState ℚ),
    (combustionCheck E F [air, fuel] o s).2 = none ∧ (combustionCheck E F [fuel, air] o s).2 = none ∧
    (combustionCheck E F [air, fuel] o s).1.get fuel .m = 1 ∧
    (combustionCheck E F [fuel, air] o s).1.get fuel .m = 10 :=
  ⟨combEnv, combFl, demoConn 0, demoConn 3, demoConn 2, combState, by decide +kernel⟩

/-- C72, exception: if the air has values of a former calculation but the fuel has not (for example since
the connection of the fuel has been replaced), the check is aborted by a `NameError`
(`UnboundLocalError`). -/
theorem C72_crash_false : ∃ (E : ChkEnv ℚ) (F : CombFluids ℚ) (air fuel o : ChkConn ℚ) (s : ChkState ℚ),
    air.good = true ∧ fuel.good = false ∧ (∀ i f, 0 ≤ s.frac i f) ∧ s.frac air.fid "O2" = 1 / 4 ∧
    s.frac fuel.fid "CH4" = 1 ∧ (∀ k i, 0 < s.val k i) ∧
    (combustionCheck E F [air, fuel] o s).2 = some .nameError := by
  refine ⟨combEnv, combFl, { demoConn 0 with good := true }, demoConn 3, demoConn 2, combState, rfl, rfl, ?_, rfl, rfl, ?_,
    by decide +kernel⟩
  · intro i f
    simp only [combState]
    split <;> norm_num
  · intro k i
    simp only [combState]
    split <;> norm_num

/-- C72, specified fractions: if a fraction of the flue gas is fixed, the sum is not one after the check. -/
theorem C72_fixed_false : ∃ (E : ChkEnv ℚ) (F : CombFluids ℚ) (air fuel o : ChkConn ℚ) (s : ChkState ℚ),
    (∀ i f, 0 ≤ s.frac i f) ∧ E.fvar o.fid = ["CO2", "H2O", "N2", "O2"] ∧ s.frac o.fid "CH4" = 1 / 10 ∧
    (combustionCheck E F [air, fuel] o s).2 = none ∧
    ((E.fluids o.fid).map ((combustionCheck E F [air, fuel] o s).1.frac o.fid)).sum ≠ 1 := by
  refine ⟨{ combEnv with fvar := fun i => if i = 2 then ["CO2", "H2O", "N2", "O2"] else [] }, combFl,
    demoConn 0, demoConn 3, demoConn 2,
    { combState with frac := fun i f => if i = 2 then (if f = "N2" then 1 / 2 else if f = "CH4" then 1 / 10 else 1 / 20) else combState.frac i f },
    ?_, rfl, rfl, by decide +kernel, by decide +kernel⟩
  intro i f
  simp only [combState]
  split
  · split_ifs <;> norm_num
  · split <;> norm_num

end Tespy
