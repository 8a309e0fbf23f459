import Verif.Props.CheckMachines
/-
C70: phase and temperature limits; C71: characteristic of pumps; C72: mass flows at combustions.
-/
namespace Tespy
variable {K : Type} [Field K] [LinearOrder K]

/-! ### C70 -/

theorem twoPhase_keep_p (fl : PureFluid K) (c : ChkConn K) (s : ChkState K) :
    (checkTwoPhase fl c s).1.get c .p = s.get c .p := by
  have hp : ∀ v, (s.put c .h v).get c .p = s.get c .p := fun v => get_put_ne s c c _ _ v (Or.inl (by decide))
  simp only [checkTwoPhase]
  split
  · cases fl.h_pQ (s.get c .p) 1 with
    | error e => rfl
    | ok h => simp only; split <;> first | exact hp _ | rfl
  · split
    · cases fl.h_pQ (s.get c .p) 0 with
      | error e => rfl
      | ok h => simp only; split <;> first | exact hp _ | rfl
    · rfl

/-- C70, phase: in the first three iterations a variable enthalpy of a connection specified as gas (`state='g'` or
a positive temperature difference to the boiling point) is not below the enthalpy of saturated vapour after the
checks, that of a connection specified as liquid not above the one of saturated liquid, if these are not negative. -/
theorem C70_phase_partial [IsStrictOrderedRing K] (E : ChkEnv K) (fuel iter : ℕ) (conns : List (ChkConn K))
    (comps : List (ChkComp K)) (c : ChkConn K) (hc : c ∈ conns) (hown : OwnBoxes conns c) (fl : PureFluid K)
    (hfl : ∀ s, E.single s c = some fl) (hphase : c.TdSet = true ∨ c.state ≠ none) (hiter : iter < 3)
    (hv : E.var c .h = true) (s : ChkState K) (hok : (checkBounds E fuel iter conns comps s).2 = none) :
    (0 < c.Td ∨ c.state = some "g" → ∀ h, fl.h_pQ ((checkBounds E fuel iter conns comps s).1.get c .p) 1 = .ok h → 0 ≤ h →
      h ≤ (checkBounds E fuel iter conns comps s).1.get c .h) ∧
    (¬ (0 < c.Td ∨ c.state = some "g") → c.Td < 0 ∨ c.state = some "l" →
      ∀ h, fl.h_pQ ((checkBounds E fuel iter conns comps s).1.get c .p) 0 = .ok h → 0 ≤ h →
      (checkBounds E fuel iter conns comps s).1.get c .h ≤ h) := by
  refine establish_state E fuel iter conns comps (fun p h' =>
    (0 < c.Td ∨ c.state = some "g" → ∀ h, fl.h_pQ p 1 = .ok h → 0 ≤ h → h ≤ h') ∧
    (¬ (0 < c.Td ∨ c.state = some "g") → c.Td < 0 ∨ c.state = some "l" → ∀ h, fl.h_pQ p 0 = .ok h → 0 ≤ h → h' ≤ h))
    c hc hown ?_ s hok
  intro s hs
  have hph : (c.TdSet = true ∨ c.state.isSome = true) ∧ iter < 3 := by
    refine ⟨hphase.imp id (fun h => ?_), hiter⟩
    cases hst : c.state with
    | none => exact absurd hst h
    | some _ => rfl
  simp only [checkState, hfl s] at hs ⊢
  obtain ⟨g1, g2, g3⟩ := andThen_ok hs
  rw [g3]
  rw [if_pos hv, if_pos hph] at g2 ⊢
  obtain ⟨k1, k2, k3⟩ := andThen_ok g2
  rw [k3, twoPhase_keep_p]
  generalize (checkEnthalpy fuel fl c _).1 = s1 at k2
  constructor
  · intro hgas h hh h0
    simp only [checkTwoPhase, if_pos hgas, gt_iff_lt, hh] at k2 ⊢
    split
    · rw [get_put_self]; linarith
    · next hlt => exact not_lt.mp hlt
  · intro hng hliq h hh h0
    simp only [checkTwoPhase, gt_iff_lt, if_neg hng, if_pos hliq, hh] at k2 ⊢
    split
    · rw [get_put_self]; linarith
    · next hlt => exact not_lt.mp hlt

-- non-vacuity: gas, enthalpy below the saturated vapour before the checks
example : let E : ChkEnv ℚ := { demoEnv with single := fun _ _ => some { demoFluid with h_pQ := fun _ q => .ok (320 + 40 * q) } }
    let c : ChkConn ℚ := { demoConn 0 with state := some "g" }
    E.var c .h = true ∧ OwnBoxes [c] c ∧
    (checkBounds E 9 0 [c] [] ⟨fun k _ => if k = .p then 30 else 310, fun _ _ => 1⟩).2 = none ∧
    (checkBounds E 9 0 [c] [] ⟨fun k _ => if k = .p then 30 else 310, fun _ _ => 1⟩).1.get c .h = 360 * (101 / 100) :=
  ⟨by decide +kernel, fun d hd => Or.inl (by simpa using hd), by decide +kernel, by decide +kernel⟩

/-- C70, temperature of mixtures: in the first four iterations the enthalpy of a connection of a mixture with
specified temperature lies between the enthalpies at the temperature limits of the mixture after the checks.
Assumption: the limits depend on the pressure of the connection only (fixed composition). -/
theorem C70_temperature_partial (E : ChkEnv K) (fuel iter : ℕ) (conns : List (ChkConn K))
    (comps : List (ChkComp K)) (c : ChkConn K) (hc : c ∈ conns) (hown : OwnBoxes conns c)
    (hfl : ∀ s, E.single s c = none) (hiter : iter < 4) (hgood : c.good = false) (hT : c.TSet = true)
    (R : K → PyRes (K × K)) (hR : ∀ s, E.mixRange s c = R (s.get c .p)) (hv : E.var c .h = true)
    (s : ChkState K) (hok : (checkBounds E fuel iter conns comps s).2 = none) :
    ∃ lo hi, R ((checkBounds E fuel iter conns comps s).1.get c .p) = .ok (lo, hi) ∧
      (lo ≤ hi → lo ≤ (checkBounds E fuel iter conns comps s).1.get c .h ∧
        (checkBounds E fuel iter conns comps s).1.get c .h ≤ hi) := by
  refine establish_state E fuel iter conns comps (fun p h => ∃ lo hi, R p = .ok (lo, hi) ∧ (lo ≤ hi → lo ≤ h ∧ h ≤ hi))
    c hc hown ?_ s hok
  intro s hs
  simp only [checkState, hfl s] at hs ⊢
  rw [if_pos ⟨hiter, hgood⟩] at hs ⊢
  simp only [hT, hv, if_true] at hs ⊢
  obtain ⟨g1, g2, g3⟩ := andThen_ok hs
  rw [g3]
  obtain ⟨k1, k2, k3⟩ := andThen_ok g2
  rw [k3]
  generalize (clipRange E c .h _).1 = s1 at k2
  have hp : ∀ (s : ChkState K) v, (s.put c .h v).get c .p = s.get c .p := fun s v => get_put_ne s c c _ _ v (Or.inl (by decide))
  simp only [checkTemperature, hR] at k2 ⊢
  cases hr : R (s1.get c .p) with
  | error e => rw [hr] at k2; cases k2
  | ok r =>
    obtain ⟨lo, hi⟩ := r
    simp only
    refine ⟨lo, hi, ?_, ?_⟩
    · split <;> split <;> simp only [hp, hr]
    · intro hle
      split
      · next h1 =>
        rw [get_put_self]
        split
        · next h2 => exact absurd hle (not_le.mpr h2)
        · rw [get_put_self]; exact ⟨le_refl _, hle⟩
      · next h1 =>
        split
        · rw [get_put_self]; exact ⟨hle, le_refl _⟩
        · next h2 => exact ⟨not_lt.mp h1, not_lt.mp h2⟩

-- non-vacuity
example : let E : ChkEnv ℚ := { demoEnv with single := fun _ _ => none, mixRange := fun _ _ => .ok (10, 20), range := fun _ => (0, 100) }
    let c : ChkConn ℚ := { demoConn 0 with TSet := true }
    E.var c .h = true ∧ c.good = false ∧
    (checkBounds E 9 3 [c] [] ⟨fun _ _ => 30, fun _ _ => 1⟩).2 = none ∧
    (checkBounds E 9 3 [c] [] ⟨fun _ _ => 30, fun _ _ => 1⟩).1.get c .h = 20 :=
  ⟨by decide +kernel, by decide +kernel, by decide +kernel, by decide +kernel⟩

/-! ### C71 -/

/-- C71, characteristic of pumps: after the check the volumetric flow lies within the characteristic
(support points `first ≤ second ≤ last` in that order, possibly with others in between) if the mass flow is a
variable; a flow between the second and the last point is not changed. -/
theorem C71_pump_flow_partial [IsStrictOrderedRing K] (E : ChkEnv K) (i : ChkConn K) (vol : ChkState K → PyRes K)
    (first second last : K) (x : List K) (h1 : first ≤ second) (h2 : second ≤ last)
    (hx : x = [first, second] ∧ last = second ∨ ∃ mid, x = first :: second :: (mid ++ [last]))
    (hm : E.var i .m = true) (s : ChkState K) (v : K) (hvol : vol s = .ok v) (hv : 0 < v) :
    (pumpFlow E i vol x s).2 = none ∧ first ≤ (pumpFlow E i vol x s).1.get i .m * v ∧
    (pumpFlow E i vol x s).1.get i .m * v ≤ last ∧
    (second ≤ s.get i .m * v → s.get i .m * v ≤ last → pumpFlow E i vol x s = (s, none)) := by
  have e1 : pyGet x (-1) = .ok last := by
    rcases hx with ⟨rfl, rfl⟩ | ⟨mid, rfl⟩
    · rfl
    · have e : (first :: second :: (mid ++ [last]))[mid.length + 2]? = some last := by simp
      have en : ((((first :: second :: (mid ++ [last])).length : Int) + -1)).toNat = mid.length + 2 := by simp; omega
      simp only [pyGet]
      rw [if_neg (by decide), if_pos (by simp; omega), en, e]
  have e2 : pyGet x 1 = .ok second := by
    rcases hx with ⟨rfl, rfl⟩ | ⟨mid, rfl⟩
    · rfl
    · simp [pyGet]
  have e3 : pyGet x 0 = .ok first := by
    rcases hx with ⟨rfl, rfl⟩ | ⟨mid, rfl⟩
    · rfl
    · simp [pyGet]
  have hv0 : v ≠ 0 := ne_of_gt hv
  have hcancel : ∀ a : K, a / v * v = a := fun a => div_mul_cancel₀ a hv0
  simp only [pumpFlow, hvol, e1, e2, e3, hm, and_true, if_neg hv0, gt_iff_lt]
  split
  · next h =>
    rw [get_put_self, hcancel]
    exact ⟨rfl, le_trans h1 h2, le_refl _, fun _ h' => absurd h (not_lt.mpr h')⟩
  · next h =>
    split
    · next h' =>
      rw [get_put_self, hcancel]
      exact ⟨rfl, le_refl _, le_trans h1 h2, fun h'' => absurd h' (not_lt.mpr h'')⟩
    · next h' => exact ⟨rfl, le_trans h1 (not_lt.mp h'), not_lt.mp h, fun _ _ => rfl⟩

-- non-vacuity: flow above the characteristic
example : (pumpFlow demoEnv (demoConn 0) (fun _ => .ok (1 / 2)) [1, 2, 4] ⟨fun _ _ => 30, fun _ _ => 1⟩).1.get (demoConn 0) .m = 8 ∧
    demoEnv.var (demoConn 0) .m = true := by decide +kernel

/-! ### C72 -/

theorem comb_val (F : CombFluids K) (inl : List (ChkConn K)) (m : K) (o : ChkConn K) (fs : List String) (s : ChkState K) :
    (ChkStep.forEach (combFluid F inl m o) fs s).1.val = s.val :=
  ChkStep.Rel.forEach (R := fun a b : ChkState K => b.val = a.val) (fun _ => rfl) (fun _ _ _ h h' => h'.trans h) _ _
    (fun f _ s => by simp only [combFluid]; split <;> rfl) s

theorem normalise_val (E : ChkEnv K) (c : ChkConn K) (s : ChkState K) : (normaliseFluids E c s).1.val = s.val := by
  simp only [normaliseFluids]
  split
  · rfl
  · split <;> rfl

theorem put_nonneg (s : ChkState K) (c d : ChkConn K) (k k' : PropKind) (v : K) (hv : 0 ≤ v) (h : 0 ≤ s.get d k') :
    0 ≤ (s.put c k v).get d k' := by
  simp only [ChkState.get, ChkState.put] at h ⊢
  split
  · exact hv
  · exact h

/-- the air mass flow of the search is the one of an inlet -/
theorem fuelSearch_air (E : ChkEnv K) (F : CombFluids K) (s : ChkState K) (inl all : List (ChkConn K))
    (hsub : ∀ i ∈ inl, i ∈ all) (r : Bool × Option (ChkConn K) × Option K)
    (hr : ∀ a, r.2.2 = some a → ∃ i ∈ all, a = s.get i .m) (a : K)
    (h : (fuelSearch E F s inl r).2.2 = some a) : ∃ i ∈ all, a = s.get i .m := by
  induction inl generalizing r with
  | nil => exact hr a h
  | cons i inl ih =>
    have hsub' : ∀ j ∈ inl, j ∈ all := fun j hj => hsub j (by simp [hj])
    rw [fuelSearch] at h
    split at h
    · exact ih hsub' (false, r.2) hr h
    · refine ih hsub' _ ?_ h
      intro a' ha'
      split at ha'
      · simp only [Option.some.injEq] at ha'
        exact ⟨i, hsub i (by simp), ha'.symm⟩
      · split at ha'
        · exact hr a' ha'
        · exact hr a' ha'

theorem fuelGuess_nonneg [IsStrictOrderedRing K] (E : ChkEnv K) (F : CombFluids K) (inl : List (ChkConn K)) (s : ChkState K)
    (hinl : ∀ i ∈ inl, 0 ≤ s.get i .m) (d : ChkConn K) (hd : 0 ≤ s.get d .m) : 0 ≤ (fuelGuess E F inl s).1.get d .m := by
  simp only [fuelGuess]
  cases F.lamb with
  | none => exact hd
  | some l =>
    simp only
    split
    · have ha := fuelSearch_air E F s inl inl (fun _ h => h) (false, none, none) (fun a h => by cases h)
      generalize fuelSearch E F s inl (false, none, none) = r at ha
      obtain ⟨_ | _, _ | i, _ | air⟩ := r
      all_goals first | exact hd | skip
      obtain ⟨j, hj, rfl⟩ := ha air rfl
      exact put_nonneg s i d _ _ _ (div_nonneg (hinl j hj) (by norm_num)) hd
    · exact hd

theorem guard_get (E : ChkEnv K) (o d : ChkConn K) (k : PropKind) (hk : k ≠ .h) (s : ChkState K) :
    ((if o.good = true then ChkStep.skip else
      adjust E o .h (fun s => decide (s.get o .h < 750000)) (fun _ => 1000000)) s).1.get d k = s.get d k ∧
    ((if o.good = true then ChkStep.skip else
      adjust E o .h (fun s => decide (s.get o .h < 750000)) (fun _ => 1000000)) s).2 = none := by
  split
  · exact ⟨rfl, rfl⟩
  · refine ⟨?_, adjust_ok ..⟩
    rw [adjust_get, if_neg]
    rintro ⟨_, h, _⟩
    exact hk h

/-- C72, mass flows: after the check of a combustion the mass flows of all inlets and a variable mass flow of the
flue gas are not negative. -/
theorem C72_flow_partial [IsStrictOrderedRing K] (E : ChkEnv K) (F : CombFluids K) (inl : List (ChkConn K)) (o : ChkConn K)
    (s : ChkState K) (hfix : ∀ i ∈ inl, E.var i .m = false → 0 ≤ s.get i .m)
    (hok : (combustionCheck E F inl o s).2 = none) :
    (∀ i ∈ inl, 0 ≤ (combustionCheck E F inl o s).1.get i .m) ∧
    (E.var o .m = true → 0 ≤ (combustionCheck E F inl o s).1.get o .m) := by
  obtain ⟨m1, _⟩ := checkMass_nonneg E inl inl (fun _ h => h) s (fun i h h' => absurd h h') hfix
  simp only [combustionCheck] at hok ⊢
  generalize checkMass E inl s = r at hok m1
  obtain ⟨a1, a2, a3⟩ := andThen_ok hok
  obtain ⟨b1, b2, b3⟩ := andThen_ok a2
  rw [a3, b3, andThen_of_ok (adjust_ok ..), andThen_of_ok (guard_get E o o .m (by decide) _).2]
  have hval : (normaliseFluids E o (ChkStep.forEach (combFluid F inl r.2 o) (E.fvar o.fid) r.1).1).1.val = r.1.val :=
    (normalise_val ..).trans (comb_val ..)
  generalize (normaliseFluids E o (ChkStep.forEach (combFluid F inl r.2 o) (E.fvar o.fid) r.1).1).1 = s2 at hval
  have h2 : ∀ i ∈ inl, 0 ≤ s2.get i .m := by
    intro i hi
    have := m1 i hi
    simp only [ChkState.get] at this ⊢
    rw [hval]; exact this
  have h3 : ∀ i ∈ inl, 0 ≤ (adjust E o .m (fun s => decide (s.get o .m < 0)) (fun _ => 10) s2).1.get i .m := by
    intro i hi
    rw [adjust_get]
    split
    · norm_num
    · exact h2 i hi
  have h4 : E.var o .m = true → 0 ≤ (adjust E o .m (fun s => decide (s.get o .m < 0)) (fun _ => 10) s2).1.get o .m := by
    intro hv
    rw [adjust_get]
    split
    · norm_num
    · next h => exact not_lt.mp (fun h' => h ⟨⟨hv, by simpa using h'⟩, rfl, rfl⟩)
  generalize (adjust E o .m (fun s => decide (s.get o .m < 0)) (fun _ => 10) s2).1 = s3 at h3 h4
  have h5 : ∀ d, ((if o.good = true then ChkStep.skip else
      adjust E o .h (fun s => decide (s.get o .h < 750000)) (fun _ => 1000000)) s3).1.get d .m = s3.get d .m :=
    fun d => (guard_get E o d .m (by decide) s3).1
  generalize ((if o.good = true then ChkStep.skip else
      adjust E o .h (fun s => decide (s.get o .h < 750000)) (fun _ => 1000000)) s3).1 = s4 at h5
  refine ⟨fun i hi => fuelGuess_nonneg E F inl s4 (fun j hj => ?_) i ?_, fun hv => fuelGuess_nonneg E F inl s4 (fun j hj => ?_) o ?_⟩
  · rw [h5]; exact h3 j hj
  · rw [h5]; exact h3 i hi
  · rw [h5]; exact h3 j hj
  · rw [h5]; exact h4 hv

theorem checkMass_id (E : ChkEnv K) (inl : List (ChkConn K)) (s : ChkState K) (h : ∀ i ∈ inl, 0 ≤ s.get i .m) :
    (checkMass E inl s).1 = s := by
  induction inl generalizing s with
  | nil => rfl
  | cons i inl ih =>
    simp only [checkMass]
    rw [if_neg (fun h' => not_lt.mpr (h i (by simp)) h'.1)]
    exact ih s (fun j hj => h j (by simp [hj]))

/-- C72, specified air ratio: if the air ratio is specified or it is at least two (or unknown), the check leaves
mass flows of the inlets which are not negative alone. -/
theorem C72_lambda (E : ChkEnv K) (F : CombFluids K) (inl : List (ChkConn K)) (o : ChkConn K) (s : ChkState K)
    (hF : F.lambSet = true ∨ ∀ l, F.lamb = some l → 2 ≤ l) (hpos : ∀ i ∈ inl, 0 ≤ s.get i .m)
    (hne : ∀ i ∈ inl, i.box .m ≠ o.box .m) (hok : (combustionCheck E F inl o s).2 = none) :
    ∀ i ∈ inl, (combustionCheck E F inl o s).1.get i .m = s.get i .m := by
  intro i hi
  simp only [combustionCheck] at hok ⊢
  have hid := checkMass_id E inl s hpos
  obtain ⟨a1, a2, a3⟩ := andThen_ok hok
  obtain ⟨b1, b2, b3⟩ := andThen_ok a2
  rw [a3, b3, andThen_of_ok (adjust_ok ..), andThen_of_ok (guard_get E o o .m (by decide) _).2]
  have hg : ∀ s4, fuelGuess E F inl s4 = (s4, none) := by
    intro s4
    simp only [fuelGuess]
    cases hl : F.lamb with
    | none => rfl
    | some l =>
      simp only
      rw [if_neg]
      rintro ⟨h1, h2⟩
      rcases hF with h | h
      · rw [h] at h2; cases h2
      · exact absurd h1 (not_lt.mpr (h l hl))
  rw [hg, (guard_get E o i .m (by decide) _).1, adjust_get, if_neg (fun h => hne i hi h.2.2)]
  have hval : (normaliseFluids E o (ChkStep.forEach (combFluid F inl (checkMass E inl s).2 o) (E.fvar o.fid)
      (checkMass E inl s).1).1).1.val = (checkMass E inl s).1.val := (normalise_val ..).trans (comb_val ..)
  simp only [ChkState.get]
  rw [hval, hid]

-- non-vacuity: negative mass flows become positive; with specified air ratio the fuel mass flow stays
example : (combustionCheck combEnv combFl [demoConn 0, demoConn 3] (demoConn 2)
      { combState with val := fun _ i => if i = 0 then 25 else -1 }).2 = none ∧
    (combustionCheck combEnv combFl [demoConn 0, demoConn 3] (demoConn 2)
      { combState with val := fun _ i => if i = 0 then 25 else -1 }).1.get (demoConn 2) .m = 10 ∧
    (combustionCheck combEnv { combFl with lambSet := true } [demoConn 0, demoConn 3] (demoConn 2) combState).2 = none ∧
    (combustionCheck combEnv { combFl with lambSet := true } [demoConn 0, demoConn 3] (demoConn 2) combState).1.get (demoConn 3) .m = 10 := by
  decide +kernel

end Tespy
