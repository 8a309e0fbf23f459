import Mathlib.Data.Matrix.Mul
import Mathlib.Tactic.NormNum
import Verif.Model.NewtonStep
import Verif.Props.Update
import Verif.Props.CheckLimits
import Verif.Props.SolveLoop

/-!
C97: solving a solved network again leaves it unchanged.
-/
namespace Tespy
variable {K : Type} [Field K] [LinearOrder K] {n : ℕ}

namespace Spec

/-- All equations are satisfied. -/
def Solution (S : NetSys K n) (v : VVals K) : Prop := ∀ i, S.res v i = 0

/-- The variables have values the solver can represent: mass fractions are 0, 1 or between `ERR` and 1 - `ERR`, component
variables are within their bounds. -/
structure Settled (S : NetSys K n) (v : VVals K) : Prop where
  fluid : ∀ b f, .fluid b f ∈ S.owners → v.fluid b f = 0 ∨ v.fluid b f = 1 ∨
    S.err ≤ v.fluid b f ∧ v.fluid b f ≤ 1 - S.err
  comp : ∀ i p, .comp i p ∈ S.owners → S.lo i p ≤ v.comp i p ∧ v.comp i p ≤ S.hi i p

/-- The state is on the side of the saturation line which is demanded by a specified superheating, subcooling or phase. -/
def PhaseKept (E : ChkEnv K) (s : ChkState K) (c : ChkConn K) : Prop :=
  ∀ fl, E.single s c = some fl → c.TdSet = true ∨ c.state.isSome = true →
    (c.Td > 0 ∨ c.state = some "g" → ∃ h, fl.h_pQ (s.get c .p) 1 = .ok h ∧ h ≤ s.get c .h) ∧
    (¬ (c.Td > 0 ∨ c.state = some "g") → c.Td < 0 ∨ c.state = some "l" →
      ∃ h, fl.h_pQ (s.get c .p) 0 = .ok h ∧ s.get c .h ≤ h)

/-- Pressure and enthalpy rise in compressors and pumps and fall in turbines; the volumetric flow of a pump is between the
second and the last point of its characteristic; compositions of flue gases are ordinary. -/
def InOrder (E : ChkEnv K) (s : ChkState K) : ChkComp K → Prop
  | .compressor i o => s.get i .p ≤ s.get o .p ∧ s.get i .h ≤ s.get o .h
  | .pump i o flow => s.get i .p ≤ s.get o .p ∧ s.get i .h ≤ s.get o .h ∧
      ∀ vol x, flow = some (vol, x) → ∃ w first second last, vol s = .ok w ∧ pyGet x 0 = .ok first ∧
        pyGet x 1 = .ok second ∧ pyGet x (-1) = .ok last ∧ second ≤ s.get i .m * w ∧ s.get i .m * w ≤ last
  | .turbine i o => i.good = true ∧ s.get o .p < s.get i .p ∧ s.get o .h < s.get i .h
  | .combustion F inl o => (∀ i ∈ inl, i.good = true ∧ 0 ≤ s.get i .m) ∧ o.good = true ∧ 0 ≤ s.get o .m ∧
      (E.fvar o.fid = [] ∨ ((E.fluids o.fid).map (s.frac o.fid)).sum = 1) ∧
      ∀ f ∈ E.fvar o.fid,
        (f = F.o2 → 1 / 1000 ≤ s.frac o.fid f ∧ s.frac o.fid f ≤ 1 / 4) ∧
        (f ≠ F.o2 → f = F.co2 ∨ f = F.h2o → 1 / 1000 ≤ s.frac o.fid f ∧ s.frac o.fid f ≤ 1 / 10) ∧
        (f ≠ F.o2 → f ≠ F.co2 → f ≠ F.h2o → f ∈ F.fuels → s.frac o.fid f ≤ 0) ∧
        (f ≠ F.o2 → f ≠ F.co2 → f ≠ F.h2o → f ∉ F.fuels → (inl.map (fun i => s.get i .m)).sum ≠ 0 ∧
          |s.frac o.fid f - (inl.map (fun i => s.frac i.fid f * s.get i .m)).sum / (inl.map (fun i => s.get i .m)).sum|
            ≤ 3 / 100)
  | .other => True

/-- The checks find nothing to correct, with starting values of an earlier calculation (`good`). -/
structure NothingToCorrect (S : NetSys K n) (v : VVals K) : Prop where
  good : ∀ c ∈ S.conns, c.good = true
  feasible : ∀ c ∈ S.conns, Feasible S.env S.fuel v.toChk c
  phase : ∀ c ∈ S.conns, PhaseKept S.env v.toChk c
  order : ∀ cp ∈ S.comps, InOrder S.env v.toChk cp

end Spec

/-! ### singular matrices -/

/-- an iteration reports exactly the matrices which are not invertible -/
theorem step_linDep (S : NetSys K n) (iter : ℕ) (v : VVals K) : (S.step iter v).2.1 = decide ((S.jac v).det = 0) := by
  unfold NetSys.step NetSys.increment
  by_cases h : (S.jac v).det = 0 <;> simp [h]

theorem out_eq (S : NetSys K n) (v0 : VVals K) (i : ℕ) : S.out v0 i =
    ⟨some (S.nrm (S.res (S.state v0 i).1)), decide ((S.jac (S.state v0 i).1).det = 0)⟩ := by
  unfold NetSys.out
  rw [step_linDep]

/-! ### the checks -/

theorem adjust_idle (E : ChkEnv K) (c : ChkConn K) (k : PropKind) (cond : ChkState K → Bool) (value : ChkState K → K)
    (s : ChkState K) (h : cond s = false) : adjust E c k cond value s = (s, none) := by
  unfold adjust
  rw [if_neg]
  rintro ⟨_, hc⟩
  rw [h] at hc
  cases hc

omit [Field K] [LinearOrder K] in
theorem chk_andThen_idle (a b : ChkStep K) (s : ChkState K) (ha : a s = (s, none)) (hb : b s = (s, none)) :
    a.andThen b s = (s, none) := by
  unfold ChkStep.andThen
  rw [ha]
  exact hb

omit [Field K] [LinearOrder K] in
theorem chk_forEach_idle {α : Type} (f : α → ChkStep K) (s : ChkState K) (l : List α) (h : ∀ a ∈ l, f a s = (s, none)) :
    ChkStep.forEach f l s = (s, none) := by
  induction l with
  | nil => rfl
  | cons a l ih =>
    exact chk_andThen_idle _ _ _ (h a (by simp)) (ih fun b hb => h b (by simp [hb]))

theorem normalise_idle (E : ChkEnv K) (c : ChkConn K) (s : ChkState K)
    (hs : E.fvar c.fid = [] ∨ ((E.fluids c.fid).map (s.frac c.fid)).sum = 1) : normaliseFluids E c s = (s, none) := by
  simp only [normaliseFluids]
  split
  · rfl
  · next hne =>
    have h1 := hs.resolve_left hne
    rw [if_neg (by rw [h1]; exact one_ne_zero), h1]
    simp

/-- a connection within its limits with good starting values -/
theorem checkConnection_idle (E : ChkEnv K) (fuel iter : ℕ) (c : ChkConn K) (s : ChkState K)
    (hf : Spec.Feasible E fuel s c) (hg : c.good = true) (hph : Spec.PhaseKept E s c) :
    checkConnection E fuel iter c s = (s, none) := by
  obtain ⟨hm, hs, hp, hh⟩ := hf
  have g2 : checkState E fuel iter c s = (s, none) := by
    simp only [checkState]
    cases hfl : E.single s c with
    | none => simp [hg]
    | some fl =>
      obtain ⟨p1, p2⟩ := hp fl hfl
      obtain ⟨lo, hi, e1, ⟨n, hn, e2, e2'⟩, e3, e4⟩ := hh fl hfl
      have k1 : checkPressure fl c s = (s, none) := by
        simp only [checkPressure]
        rw [if_neg (not_lt.mpr p2), if_neg (not_lt.mpr p1)]
      have k2 : checkEnthalpy fuel fl c s = (s, none) := by
        simp only [checkEnthalpy, (lower_spec fl _ _).mpr e1, upper_complete fl _ _ n _ e2 e2' fuel hn]
        rw [if_neg (not_lt.mpr e3), if_neg (not_lt.mpr e4)]
      have k3 : (if (c.TdSet ∨ c.state.isSome) ∧ iter < 3 then checkTwoPhase fl c else ChkStep.skip) s = (s, none) := by
        split
        · next hc =>
          obtain ⟨q1, q2⟩ := hph fl hfl hc.1
          unfold checkTwoPhase
          by_cases ha : c.Td > 0 ∨ c.state = some "g"
          · obtain ⟨h, e5, e6⟩ := q1 ha
            rw [if_pos ha, e5]
            dsimp only
            rw [if_neg (not_lt.mpr e6)]
          · rw [if_neg ha]
            by_cases hb : c.Td < 0 ∨ c.state = some "l"
            · obtain ⟨h, e5, e6⟩ := q2 ha hb
              rw [if_pos hb, e5]
              dsimp only
              rw [if_neg (not_lt.mpr e6)]
            · rw [if_neg hb]
        · rfl
      refine chk_andThen_idle _ _ _ ?_ ?_
      · split
        · exact k1
        · rfl
      · split
        · exact chk_andThen_idle _ _ _ k2 k3
        · rfl
  refine chk_andThen_idle _ _ _ g2 ?_
  split
  · simp only [clipRange]
    split
    · next h => rw [put_same s c .m _ (le_antisymm h hm.1)]
    · split
      · next h => rw [put_same s c .m _ (le_antisymm hm.2 h)]
      · rfl
  · rfl

theorem checkMass_idle (E : ChkEnv K) (inl : List (ChkConn K)) (s : ChkState K) (h : ∀ i ∈ inl, 0 ≤ s.get i .m) :
    checkMass E inl s = (s, (inl.map (fun i => s.get i .m)).sum) := by
  induction inl with
  | nil => rfl
  | cons i inl ih =>
    have h0 : ¬ (s.get i .m < 0 ∧ E.var i .m = true) := fun hc => absurd hc.1 (not_lt.mpr (h i (by simp)))
    simp only [checkMass, h0, if_false, ih fun j hj => h j (by simp [hj]), List.map_cons, List.sum_cons]

theorem fuelSearch_good (E : ChkEnv K) (F : CombFluids K) (s : ChkState K) (inl : List (ChkConn K))
    (h : ∀ i ∈ inl, i.good = true) (r : Bool × Option (ChkConn K) × Option K) (hr : r.1 = false) :
    (fuelSearch E F s inl r).1 = false := by
  induction inl generalizing r with
  | nil => exact hr
  | cons i inl ih =>
    simp only [fuelSearch, h i (by simp), if_true]
    exact ih (fun j hj => h j (by simp [hj])) _ rfl

theorem keepWithin_idle (x hi high lo low : K) (h1 : lo ≤ x) (h2 : x ≤ hi) : keepWithin x hi high lo low = x := by
  simp only [keepWithin]
  rw [if_neg (not_lt.mpr h2), if_neg (not_lt.mpr h1)]

omit [Field K] [LinearOrder K] in
theorem putFrac_same (s : ChkState K) (i : ℕ) (f : String) : s.putFrac i f (s.frac i f) = s := by
  cases s with
  | mk val frac =>
    simp only [ChkState.putFrac, ChkState.mk.injEq, true_and]
    funext j g
    split
    · next h => obtain ⟨rfl, rfl⟩ := h; rfl
    · rfl

/-- a component in order -/
theorem compCheck_idle (E : ChkEnv K) (cp : ChkComp K) (s : ChkState K) (h : Spec.InOrder E s cp) :
    cp.check E s = (s, none) := by
  cases cp with
  | other => rfl
  | compressor i o =>
    obtain ⟨h1, h2⟩ := h
    refine chk_andThen_idle _ _ _ (adjust_idle _ _ _ _ _ _ ?_) (chk_andThen_idle _ _ _ (adjust_idle _ _ _ _ _ _ ?_)
      (chk_andThen_idle _ _ _ (adjust_idle _ _ _ _ _ _ ?_) (adjust_idle _ _ _ _ _ _ ?_))) <;> simp [h1, h2]
  | pump i o flow =>
    obtain ⟨h1, h2, h3⟩ := h
    refine chk_andThen_idle _ _ _ ?_ ?_
    · refine chk_andThen_idle _ _ _ (adjust_idle _ _ _ _ _ _ ?_) (chk_andThen_idle _ _ _ (adjust_idle _ _ _ _ _ _ ?_)
        (chk_andThen_idle _ _ _ (adjust_idle _ _ _ _ _ _ ?_) (adjust_idle _ _ _ _ _ _ ?_))) <;> simp [h1, h2]
    · cases flow with
      | none => rfl
      | some vx =>
        obtain ⟨vol, x⟩ := vx
        obtain ⟨w, a, b, l, e1, e2, e3, e4, e5, e6⟩ := h3 vol x rfl
        simp only [pumpFlow, e1, e2, e3, e4]
        rw [if_neg (fun hc => absurd hc.1 (not_lt.mpr e6)), if_neg (fun hc => absurd hc.1 (not_lt.mpr e5))]
  | turbine i o =>
    obtain ⟨h0, h1, h2⟩ := h
    refine chk_andThen_idle _ _ _ ?_ (chk_andThen_idle _ _ _ (adjust_idle _ _ _ _ _ _ ?_) (adjust_idle _ _ _ _ _ _ ?_))
    · rw [h0]; rfl
    · simp [h2]
    · simp [h1]
  | combustion F inl o =>
    obtain ⟨hin, hog, hom, hsum, hfr⟩ := h
    simp only [ChkComp.check, combustionCheck]
    rw [checkMass_idle E inl s fun i hi => (hin i hi).2]
    refine chk_andThen_idle _ _ _ (chk_forEach_idle _ _ _ ?_) (chk_andThen_idle _ _ _ (normalise_idle E o s hsum)
      (chk_andThen_idle _ _ _ (adjust_idle _ _ _ _ _ _ (by simp [hom])) (chk_andThen_idle _ _ _ (by rw [hog]; rfl) ?_)))
    · intro f hf
      obtain ⟨a1, a2, a3, a4⟩ := hfr f hf
      have : combFrac F inl (inl.map (fun i => s.get i .m)).sum s f (s.frac o.fid f) = some (s.frac o.fid f) := by
        unfold combFrac
        by_cases b1 : f = F.o2
        · rw [if_pos b1, keepWithin_idle _ _ _ _ _ (a1 b1).1 (a1 b1).2]
        · rw [if_neg b1]
          by_cases b2 : f = F.co2
          · rw [if_pos b2, keepWithin_idle _ _ _ _ _ (a2 b1 (Or.inl b2)).1 (a2 b1 (Or.inl b2)).2]
          · rw [if_neg b2]
            by_cases b3 : f = F.h2o
            · rw [if_pos b3, keepWithin_idle _ _ _ _ _ (a2 b1 (Or.inr b3)).1 (a2 b1 (Or.inr b3)).2]
            · rw [if_neg b3]
              by_cases b4 : f ∈ F.fuels
              · rw [if_pos b4, if_neg (not_lt.mpr (a3 b1 b2 b3 b4))]
              · obtain ⟨c1, c2⟩ := a4 b1 b2 b3 b4
                rw [if_neg b4, if_neg c1]
                dsimp only
                rw [if_neg (not_lt.mpr c2)]
      simp only [combFluid, this, putFrac_same]
    · unfold fuelGuess
      cases F.lamb with
      | none => rfl
      | some l =>
        dsimp only
        split
        · have := fuelSearch_good E F s inl (fun i hi => (hin i hi).1) (false, none, none) rfl
          generalize fuelSearch E F s inl (false, none, none) = r at this
          obtain ⟨b, x, y⟩ := r
          simp only at this
          subst this
          rfl
        · rfl

theorem checkBounds_idle (S : NetSys K n) (iter : ℕ) (v : VVals K) (h : Spec.NothingToCorrect S v) :
    checkBounds S.env S.fuel iter S.conns S.comps v.toChk = (v.toChk, none) := by
  refine chk_andThen_idle _ _ _ (chk_forEach_idle _ _ _ fun c hc => chk_andThen_idle _ _ _
    (normalise_idle _ _ _ (h.feasible c hc).sum)
    (checkConnection_idle _ _ _ _ _ (h.feasible c hc) (h.good c hc) (h.phase c hc))) ?_
  split
  · exact chk_andThen_idle _ _ _ (chk_forEach_idle _ _ _ fun cp hcp => compCheck_idle _ _ _ (h.order cp hcp))
      (chk_forEach_idle _ _ _ fun c hc => checkConnection_idle _ _ _ _ _ (h.feasible c hc) (h.good c hc) (h.phase c hc))
  · rfl

/-! ### the iteration -/

theorem incAt_zero : incAt (0 : Fin n → K) = fun _ => 0 := by
  funext j
  simp [incAt]

theorem updateOne_zero (S : NetSys K n) (v : VVals K) (o : Owner) (ho : o ∈ S.owners) (h0 : 0 < S.err) (h1 : S.err ≤ 1)
    [IsStrictOrderedRing K] (hv : Spec.Settled S v) :
    updateOne S.err S.kind S.lo S.hi (fun _ => 0) S.col v o = v := by
  apply VVals.ext_get
  intro o'
  rw [updateOne_get]
  split
  · next h =>
    subst h
    cases o' with
    | prop b =>
      simp only [newValue]
      cases S.kind b <;> simp [updP]
    | fluid b f =>
      simp only [newValue, updFluid, VVals.get, add_zero]
      rcases hv.fluid b f ho with h | h | ⟨h2, h3⟩
      · rw [h, if_pos h0]
      · rw [h, if_neg (not_lt.mpr h1), if_pos (by linarith)]
      · rw [if_neg (not_lt.mpr h2), if_neg (not_lt.mpr h3)]
    | comp i p =>
      obtain ⟨h2, h3⟩ := hv.comp i p ho
      simp only [newValue, updComp, VVals.get, add_zero]
      rw [if_neg (not_lt.mpr h2), if_neg (not_lt.mpr h3)]
  · rfl

theorem updateVariables_zero [IsStrictOrderedRing K] (S : NetSys K n) (v : VVals K) (h0 : 0 < S.err) (h1 : S.err ≤ 1)
    (hv : Spec.Settled S v) (os : List Owner) (hos : ∀ o ∈ os, o ∈ S.owners) :
    updateVariables S.err S.kind S.lo S.hi (fun _ => 0) S.col os v = v := by
  induction os with
  | nil => rfl
  | cons o os ih =>
    rw [updateVariables, updateOne_zero S v o (hos o (by simp)) h0 h1 hv]
    exact ih fun o' ho' => hos o' (by simp [ho'])

/-- At a solution an iteration consists of the checks. -/
theorem step_solution [IsStrictOrderedRing K] (S : NetSys K n) (iter : ℕ) (v : VVals K) (hsol : Spec.Solution S v)
    (hreg : (S.jac v).det ≠ 0) (h0 : 0 < S.err) (h1 : S.err ≤ 1) (hv : Spec.Settled S v) :
    S.step iter v = (v.ofChk S.kind (checkBounds S.env S.fuel iter S.conns S.comps v.toChk).1, false,
      (checkBounds S.env S.fuel iter S.conns S.comps v.toChk).2) := by
  have hr : S.res v = 0 := funext hsol
  have hi : S.increment v = some 0 := by
    unfold NetSys.increment
    rw [if_neg hreg, hr, neg_zero, Matrix.mulVec_zero]
  unfold NetSys.step
  rw [hi]
  simp only [incAt_zero, updateVariables_zero S v h0 h1 hv S.owners fun o h => h]

omit [Field K] [LinearOrder K] in
theorem ofChk_toChk (kind : ℕ → PropKind) (v : VVals K) : v.ofChk kind v.toChk = v := rfl

theorem step_fixed [IsStrictOrderedRing K] (S : NetSys K n) (iter : ℕ) (v : VVals K) (hsol : Spec.Solution S v)
    (hreg : (S.jac v).det ≠ 0) (h0 : 0 < S.err) (h1 : S.err ≤ 1) (hv : Spec.Settled S v)
    (hc : Spec.NothingToCorrect S v) : S.step iter v = (v, false, none) := by
  rw [step_solution S iter v hsol hreg h0 h1 hv, checkBounds_idle S iter v hc]
  rfl

theorem state_fixed [IsStrictOrderedRing K] (S : NetSys K n) (v : VVals K) (hsol : Spec.Solution S v)
    (hreg : (S.jac v).det ≠ 0) (h0 : 0 < S.err) (h1 : S.err ≤ 1) (hv : Spec.Settled S v)
    (hc : Spec.NothingToCorrect S v) (i : ℕ) : S.state v i = (v, none) := by
  induction i with
  | zero => rfl
  | succ i ih =>
    unfold NetSys.state
    rw [ih]
    simp only [step_fixed S i v hsol hreg h0 h1 hv hc]

/-- the loop for residuals which are zero in every iteration -/
theorem solveLoop_zero [IsStrictOrderedRing K] (out : ℕ → Iter K) (ho : ∀ i, out i = ⟨some 0, false⟩) (thr : K)
    (ht : 0 < thr) (minIter : ℤ) (hmin : minIter ≤ 42) (rem i : ℕ) (hi : (i : ℤ) ≤ max 0 (minIter - 1))
    (hrem : minIter ≤ i + rem) (h1 : 1 ≤ rem) :
    solveLoop out thr minIter rem i = ⟨(max 1 minIter).toNat, true, true, false⟩ := by
  induction rem generalizing i with
  | zero => omega
  | succ rem ih =>
    have hl : lastTwo out thr i = true := by
      unfold lastTwo
      split <;> simp [ho, ltF, ht]
    by_cases hs : (i : ℤ) ≥ minIter - 1
    · have : stopNow out thr minIter i = true := by simp [stopNow, hl, hs]
      rw [solveLoop, if_pos this]
      have : i + 1 = (max 1 minIter).toNat := by omega
      simp [ho, this]
    · have h2 : stopNow out thr minIter i = false := by simp [stopNow, hs, ho]
      have h3 : noProgress out i = false := by
        have : ¬ i > 40 := by omega
        simp [noProgress, this]
      rw [solveLoop, h2, h3]
      simp only [Bool.false_eq_true, if_false]
      exact ih (i + 1) (by push_cast; omega) (by push_cast at hrem ⊢; omega) (by omega)

/-- C97: a calculation which starts at a solution keeps all values in every iteration and ends as converged after `min_iter`
iterations, if the mass fractions are representable, the checks have nothing to correct and at most 42 iterations are
demanded. -/
theorem C97_repeat_partial [IsStrictOrderedRing K] (S : NetSys K n) (v : VVals K) (hsol : Spec.Solution S v)
    (hreg : (S.jac v).det ≠ 0) (h0 : 0 < S.err) (h1 : S.err ≤ 1) (hv : Spec.Settled S v)
    (hc : Spec.NothingToCorrect S v) (hn : S.nrm 0 = 0) (thr : K) (ht : 0 < thr) (minIter : ℤ) (hmin : minIter ≤ 42)
    (maxIter : ℕ) (hmax : minIter ≤ maxIter) (hone : 1 ≤ maxIter) :
    S.solve thr minIter maxIter v = .ok (v, ⟨(max 1 minIter).toNat, true, true, false⟩) := by
  have hst := state_fixed S v hsol hreg h0 h1 hv hc
  have hr : S.res v = 0 := funext hsol
  have ho : ∀ i, S.out v i = ⟨some 0, false⟩ := by
    intro i
    simp only [out_eq]
    rw [hst i]
    simp [hr, hn, hreg]
  unfold NetSys.solve
  rw [solveLoop_zero (S.out v) ho thr ht minIter hmin maxIter 0 (by simp) (by simpa using hmax) hone]
  simp only [hst]

/-! ### limits of C97 -/

/-- residuals which are zero in every iteration are no progress -/
theorem solveLoop_stalled [IsStrictOrderedRing K] (out : ℕ → Iter K) (ho : ∀ i, out i = ⟨some 0, false⟩) (thr : K)
    (minIter : ℤ) (hmin : 43 ≤ minIter) (rem i : ℕ) (hi : i ≤ 41) (hrem : 42 ≤ i + rem) :
    solveLoop out thr minIter rem i = ⟨42, false, false, false⟩ := by
  induction rem generalizing i with
  | zero => omega
  | succ rem ih =>
    have hs : ¬ (i : ℤ) ≥ minIter - 1 := by omega
    have h2 : stopNow out thr minIter i = false := by simp [stopNow, hs, ho]
    rw [solveLoop, h2]
    by_cases h41 : i = 41
    · subst h41
      have h3 : noProgress out 41 = true := by simp [noProgress, ho, geF]
      simp [h3, ho]
    · have h3 : noProgress out i = false := by
        have : ¬ i > 40 := by omega
        simp [noProgress, this]
      simp only [h3, Bool.false_eq_true, if_false]
      exact ih (i + 1) (by omega) (by omega)

/-- C97 is false for more than 42 demanded iterations: the calculation at a solution is aborted for lack of progress. -/
theorem C97_min_iter_false [IsStrictOrderedRing K] (S : NetSys K n) (v : VVals K) (hsol : Spec.Solution S v)
    (hreg : (S.jac v).det ≠ 0) (h0 : 0 < S.err) (h1 : S.err ≤ 1) (hv : Spec.Settled S v)
    (hc : Spec.NothingToCorrect S v) (hn : S.nrm 0 = 0) (thr : K) (minIter : ℤ) (hmin : 43 ≤ minIter)
    (maxIter : ℕ) (hmax : minIter ≤ maxIter) :
    S.solve thr minIter maxIter v = .ok (v, ⟨42, false, false, false⟩) := by
  have hst := state_fixed S v hsol hreg h0 h1 hv hc
  have hr : S.res v = 0 := funext hsol
  have ho : ∀ i, S.out v i = ⟨some 0, false⟩ := by
    intro i
    simp only [out_eq]
    rw [hst i]
    simp [hr, hn, hreg]
  unfold NetSys.solve
  rw [solveLoop_stalled (S.out v) ho thr minIter hmin maxIter 0 (by omega) (by omega)]
  simp only [hst]

/-- If the checks move a solution to values with singular jacobian, the calculation ends there. -/
theorem solve_moved [IsStrictOrderedRing K] (S : NetSys K n) (v v1 : VVals K) (hsol : Spec.Solution S v)
    (hreg : (S.jac v).det ≠ 0) (h0 : 0 < S.err) (h1 : S.err ≤ 1) (hv : Spec.Settled S v)
    (hchk : (checkBounds S.env S.fuel 0 S.conns S.comps v.toChk).2 = none)
    (hv1 : v.ofChk S.kind (checkBounds S.env S.fuel 0 S.conns S.comps v.toChk).1 = v1)
    (hsing : (S.jac v1).det = 0) (thr : K) (minIter : ℤ) (hmin : 2 ≤ minIter) (maxIter : ℕ) (hmax : 2 ≤ maxIter) :
    S.solve thr minIter maxIter v = .ok (v1, ⟨2, false, true, true⟩) := by
  have s1 : S.state v 1 = (v1, none) := by
    simp only [NetSys.state]
    rw [step_solution S 0 v hsol hreg h0 h1 hv, hchk, hv1]
  have s2 : S.state v 2 = (v1, none) := by
    unfold NetSys.state
    rw [s1]
    simp [NetSys.step, NetSys.increment, hsing]
  have d0 : (S.out v 0).linDep = false := by simp [out_eq, NetSys.state, hreg]
  have d1 : (S.out v 1).linDep = true := by simp [out_eq, s1, hsing]
  obtain ⟨m, rfl⟩ : ∃ m, maxIter = m + 2 := ⟨maxIter - 2, by omega⟩
  have hl : solveLoop (S.out v) thr minIter (m + 2) 0 = ⟨2, false, true, true⟩ := by
    have a0 : stopNow (S.out v) thr minIter 0 = false := by
      have : ¬ ((0 : ℕ) : ℤ) ≥ minIter - 1 := by push_cast; omega
      simp [stopNow, d0]
      omega
    have a1 : stopNow (S.out v) thr minIter 1 = true := by simp [stopNow, d1]
    have b0 : noProgress (S.out v) 0 = false := by simp [noProgress]
    simp only [solveLoop, a0, b0, a1, d1, Bool.false_eq_true, if_false, if_true, Nat.zero_add, Nat.reduceAdd, Bool.not_true]
  unfold NetSys.solve
  rw [hl]
  simp only [s2]

/-! ### concrete networks -/

/-- One variable `o` and one equation `f x = 0` with derivative `df`, on the connections and components of a network. -/
def scalarNet (o : Owner) (f df : ℚ → ℚ) (kind : ℕ → PropKind) (env : ChkEnv ℚ) (conns : List (ChkConn ℚ))
    (comps : List (ChkComp ℚ)) : NetSys ℚ 1 where
  owners := [o]
  col _ := 0
  kind := kind
  lo _ _ := 0
  hi _ _ := 1
  err := 1 / 1000000
  res v _ := f (v.get o)
  jac v := fun _ _ => df (v.get o)
  nrm r := |r 0|
  env := env
  fuel := 9
  conns := conns
  comps := comps

theorem scalarNet_det (o : Owner) (f df : ℚ → ℚ) (kind : ℕ → PropKind) (env : ChkEnv ℚ) (conns : List (ChkConn ℚ))
    (comps : List (ChkComp ℚ)) (v : VVals ℚ) : ((scalarNet o f df kind env conns comps).jac v).det = df (v.get o) := by
  rw [Matrix.det_fin_one]
  rfl

/-- A mixture of variable composition; containers 0, 1, 2 hold mass flow, pressure and enthalpy of connection 0, containers
3, 4, 5 those of connection 1; mass flows between -100 and 100. -/
def mixEnv (isVar : PropKind → ℕ → Bool) (fluids fvar : ℕ → List String) : ChkEnv ℚ where
  isVar := isVar
  fluids := fluids
  fvar := fvar
  single _ _ := none
  mixRange _ _ := .ok (0, 1000000)
  range := fun _ => (-100, 100)

def netKind (b : ℕ) : PropKind := if b % 3 = 0 then .m else if b % 3 = 1 then .p else .h

def netConn (j : ℕ) : ChkConn ℚ where
  box := fun k => match k with
    | .m => 3 * j
    | .p => 3 * j + 1
    | .h => 3 * j + 2
  fid := j
  good := true
  TdSet := false
  Td := 0
  state := none
  TSet := false

def noVar : PropKind → ℕ → Bool := fun _ _ => false

/-- Values of three connections: 1 kg/s, 10 Pa, 300 J/kg; 1 kg/s, 1 Pa, 200 J/kg; 19 kg/s, 10 Pa, 300 J/kg. -/
def netVals (frac : ℕ → String → ℚ) : VVals ℚ where
  prop b := match b with
    | 0 => 1
    | 1 => 10
    | 2 => 300
    | 3 => 1
    | 4 => 1
    | 5 => 200
    | 6 => 19
    | 7 => 10
    | _ => 300
  fluid := frac
  comp _ _ := 0

theorem feasible_mix (isVar : PropKind → ℕ → Bool) (fluids fvar : ℕ → List String) (v : VVals ℚ) (c : ChkConn ℚ)
    (hm : -100 ≤ v.toChk.get c .m ∧ v.toChk.get c .m ≤ 100)
    (hs : fvar c.fid = [] ∨ ((fluids c.fid).map (v.fluid c.fid)).sum = 1) :
    Spec.Feasible (mixEnv isVar fluids fvar) 9 v.toChk c :=
  ⟨hm, hs, fun _ h => (by cases h), fun _ h => (by cases h)⟩

/-- A turbine with an equation h² = 40000 for the enthalpy at the outlet. -/
def turbNet : NetSys ℚ 1 := scalarNet (.prop 5) (fun h => h ^ 2 - 40000) (fun h => 2 * h) netKind
  (mixEnv (fun k i => k == .h && i == 5) (fun _ => ["A"]) (fun _ => [])) [netConn 0, netConn 1]
  [.turbine (netConn 0) (netConn 1)]

/-- A turbine with an equation h² = 40000 for the enthalpy at the outlet meets the hypotheses of `C97_repeat_partial` and
`C97_min_iter_false`. -/
example : turbNet.solve (1 / 1000) 4 50 (netVals fun _ _ => 1) = .ok (netVals fun _ _ => 1, ⟨4, true, true, false⟩) ∧
    turbNet.solve (1 / 1000) 43 50 (netVals fun _ _ => 1) = .ok (netVals fun _ _ => 1, ⟨42, false, false, false⟩) := by
  have hsol : Spec.Solution turbNet (netVals fun _ _ => 1) := fun i => by
    change (200 : ℚ) ^ 2 - 40000 = 0
    norm_num
  have hreg : (turbNet.jac (netVals fun _ _ => 1)).det ≠ 0 := by
    unfold turbNet
    rw [scalarNet_det]
    change (2 * 200 : ℚ) ≠ 0
    norm_num
  have hset : Spec.Settled turbNet (netVals fun _ _ => 1) :=
    ⟨fun b f h => by simp [turbNet, scalarNet] at h, fun i p h => by simp [turbNet, scalarNet] at h⟩
  have hc : Spec.NothingToCorrect turbNet (netVals fun _ _ => 1) := by
    refine ⟨?_, ?_, ?_, ?_⟩
    · intro c hc
      simp only [turbNet, scalarNet, List.mem_cons, List.not_mem_nil, or_false] at hc
      rcases hc with rfl | rfl <;> rfl
    · intro c hc
      simp only [turbNet, scalarNet, List.mem_cons, List.not_mem_nil, or_false] at hc
      rcases hc with rfl | rfl <;> exact feasible_mix _ _ _ _ _ (by decide +kernel) (Or.inl rfl)
    · intro c _ fl hfl
      cases hfl
    · intro cp hcp
      simp only [turbNet, scalarNet, List.mem_cons, List.not_mem_nil, or_false] at hcp
      subst hcp
      exact ⟨rfl, by decide +kernel, by decide +kernel⟩
  have h0 : 0 < turbNet.err := by simp [turbNet, scalarNet]
  have h1 : turbNet.err ≤ 1 := by simp only [turbNet, scalarNet]; norm_num
  have hn : turbNet.nrm 0 = 0 := by simp [turbNet, scalarNet]
  exact ⟨C97_repeat_partial turbNet _ hsol hreg h0 h1 hset hc hn _ (by norm_num) 4 (by norm_num) 50 (by norm_num) (by norm_num),
    C97_min_iter_false turbNet _ hsol hreg h0 h1 hset hc hn _ 43 (by norm_num) 50 (by norm_num)⟩

/-- A combustion chamber with an equation of second order for the carbon dioxide of the flue gas, which has the solution
15 %. -/
def combNet : NetSys ℚ 1 := scalarNet (.fluid 1 "CO2") (fun x => (x - 3 / 20) * (x - (6 / 37 - 3 / 20)))
  (fun x => 2 * x - 6 / 37) netKind (mixEnv noVar (fun _ => ["CO2", "N2"]) (fun i => if i = 1 then ["CO2"] else []))
  [netConn 0, netConn 1, netConn 2]
  [.combustion ⟨"O2", "CO2", "H2O", ["CH4"], none, false⟩ [netConn 0, netConn 2] (netConn 1)]

def combVals : VVals ℚ := netVals fun _ f => if f = "CO2" then 3 / 20 else 17 / 20

/-- A pump with characteristic and an equation of second order for the mass flow, which has the solution 1 kg/s. -/
def pumpNet : NetSys ℚ 1 := scalarNet (.prop 3) (fun m => m ^ 2 - 1) (fun m => 2 * m) netKind
  (mixEnv (fun k i => k == .m && i == 3) (fun _ => ["A"]) (fun _ => [])) [netConn 1, netConn 0]
  [.pump (netConn 1) (netConn 0) (some (fun _ => .ok 1, [0, 2, 4]))]

/-- The values after the checks of the first iteration. -/
def afterChecks (S : NetSys ℚ 1) (v : VVals ℚ) : VVals ℚ :=
  v.ofChk S.kind (checkBounds S.env S.fuel 0 S.conns S.comps v.toChk).1

/-- C97 is false for combustions: a flue gas with 15 % carbon dioxide satisfies all equations and all limits, but the check
of the combustion chamber, which is made for good starting values as well, sets the fraction to 7.5 %, and the calculation
ends with a singular matrix. -/
theorem C97_combustion_false : ∃ (S : NetSys ℚ 1) (v v1 : VVals ℚ), Spec.Solution S v ∧ (S.jac v).det ≠ 0 ∧
    Spec.Settled S v ∧ (∀ c ∈ S.conns, c.good = true ∧ Spec.Feasible S.env S.fuel v.toChk c ∧
      Spec.PhaseKept S.env v.toChk c) ∧ v.fluid 1 "CO2" = 3 / 20 ∧
    (∀ thr, ∀ minIter : ℤ, 2 ≤ minIter → ∀ maxIter, 2 ≤ maxIter →
      S.solve thr minIter maxIter v = .ok (v1, ⟨2, false, true, true⟩)) ∧ v1.fluid 1 "CO2" = 3 / 37 := by
  have hsol : Spec.Solution combNet combVals := fun i => by
    change ((3 / 20 - 3 / 20) * (3 / 20 - (6 / 37 - 3 / 20)) : ℚ) = 0
    norm_num
  have hreg : (combNet.jac combVals).det ≠ 0 := by
    unfold combNet
    rw [scalarNet_det]
    change (2 * (3 / 20) - 6 / 37 : ℚ) ≠ 0
    norm_num
  have hset : Spec.Settled combNet combVals := by
    refine ⟨fun b f h => ?_, fun i p h => by simp [combNet, scalarNet] at h⟩
    simp only [combNet, scalarNet, List.mem_singleton, Owner.fluid.injEq] at h
    obtain ⟨rfl, rfl⟩ := h
    right; right
    decide +kernel
  refine ⟨combNet, combVals, afterChecks combNet combVals, hsol, hreg, hset, ?_, by decide +kernel, fun thr minIter hmin maxIter hmax => ?_, ?_⟩
  rotate_left
  · exact solve_moved _ _ _ hsol hreg (by simp [combNet, scalarNet]) (by simp only [combNet, scalarNet]; norm_num) hset (by decide +kernel) rfl
      (by unfold combNet; rw [scalarNet_det]; decide +kernel) thr minIter hmin maxIter hmax
  · decide +kernel
  · intro c hc
    refine ⟨?_, ?_, fun fl hfl => by cases hfl⟩
    · simp only [combNet, scalarNet, List.mem_cons, List.not_mem_nil, or_false] at hc
      rcases hc with rfl | rfl | rfl <;> rfl
    · simp only [combNet, scalarNet, List.mem_cons, List.not_mem_nil, or_false] at hc
      rcases hc with rfl | rfl | rfl <;> exact feasible_mix _ _ _ _ _ (by decide +kernel) (Or.inr (by decide +kernel))

/-- C97 is false for pumps with characteristic: a volumetric flow of 1 in the first segment (between 0 and 2) of the
characteristic satisfies all equations and limits, but the check replaces it by the first point, and the calculation ends with
a singular matrix. -/
theorem C97_pump_false : ∃ (S : NetSys ℚ 1) (v v1 : VVals ℚ), Spec.Solution S v ∧ (S.jac v).det ≠ 0 ∧
    Spec.Settled S v ∧ (∀ c ∈ S.conns, c.good = true ∧ Spec.Feasible S.env S.fuel v.toChk c ∧
      Spec.PhaseKept S.env v.toChk c) ∧ v.prop 3 = 1 ∧
    (∀ thr, ∀ minIter : ℤ, 2 ≤ minIter → ∀ maxIter, 2 ≤ maxIter →
      S.solve thr minIter maxIter v = .ok (v1, ⟨2, false, true, true⟩)) ∧ v1.prop 3 = 0 := by
  have hsol : Spec.Solution pumpNet (netVals fun _ _ => 1) := fun i => by
    change (1 ^ 2 - 1 : ℚ) = 0
    norm_num
  have hreg : (pumpNet.jac (netVals fun _ _ => 1)).det ≠ 0 := by
    unfold pumpNet
    rw [scalarNet_det]
    change (2 * 1 : ℚ) ≠ 0
    norm_num
  have hset : Spec.Settled pumpNet (netVals fun _ _ => 1) :=
    ⟨fun b f h => by simp [pumpNet, scalarNet] at h, fun i p h => by simp [pumpNet, scalarNet] at h⟩
  refine ⟨pumpNet, (netVals fun _ _ => 1), afterChecks pumpNet (netVals fun _ _ => 1), hsol, hreg, hset, ?_, by decide +kernel, fun thr minIter hmin maxIter hmax => ?_, ?_⟩
  rotate_left
  · exact solve_moved _ _ _ hsol hreg (by simp [pumpNet, scalarNet]) (by simp only [pumpNet, scalarNet]; norm_num) hset (by decide +kernel) rfl
      (by unfold pumpNet; rw [scalarNet_det]; decide +kernel) thr minIter hmin maxIter hmax
  · decide +kernel
  · intro c hc
    refine ⟨?_, ?_, fun fl hfl => by cases hfl⟩
    · simp only [pumpNet, scalarNet, List.mem_cons, List.not_mem_nil, or_false] at hc
      rcases hc with rfl | rfl <;> rfl
    · simp only [pumpNet, scalarNet, List.mem_cons, List.not_mem_nil, or_false] at hc
      rcases hc with rfl | rfl <;> exact feasible_mix _ _ _ _ _ (by decide +kernel) (Or.inl rfl)

/-- increment of one equation -/
theorem scalarNet_increment (o : Owner) (f : ℚ → ℚ) (d : ℚ) (hd : d ≠ 0) (kind : ℕ → PropKind) (env : ChkEnv ℚ)
    (conns : List (ChkConn ℚ)) (comps : List (ChkComp ℚ)) (v : VVals ℚ) :
    (scalarNet o f (fun _ => d) kind env conns comps).increment v = some (fun _ => -f (v.get o) / d) := by
  unfold NetSys.increment
  rw [if_neg (by rw [scalarNet_det]; exact hd)]
  congr 1
  have hdet : IsUnit ((scalarNet o f (fun _ => d) kind env conns comps).jac v).det := by
    rw [scalarNet_det]; exact hd.isUnit
  have e : ((scalarNet o f (fun _ => d) kind env conns comps).jac v).mulVec (fun _ => -f (v.get o) / d) =
      -(scalarNet o f (fun _ => d) kind env conns comps).res v := by
    funext i
    simp only [Matrix.mulVec, dotProduct, Finset.univ_unique, Finset.sum_singleton, scalarNet, Pi.neg_apply]
    field_simp
  rw [← e, Matrix.mulVec_mulVec, Matrix.nonsing_inv_mul _ hdet, Matrix.one_mulVec]

/-- The network of `C97_trace_false`. -/
def traceNet : NetSys ℚ 1 := scalarNet (.fluid 0 "A") (fun x => x - 1 / 10000000) (fun _ => 1) netKind
  (mixEnv noVar (fun _ => ["A", "B"]) (fun _ => ["A"])) [netConn 0] []

def traceVals (x : ℚ) : VVals ℚ := netVals fun b f => if b = 0 ∧ f = "A" then x else 9999999 / 10000000

theorem trace_check (iter : ℕ) : checkBounds traceNet.env traceNet.fuel iter traceNet.conns traceNet.comps
    (traceVals 0).toChk = ((traceVals 0).toChk, none) := by
  have h1 : normaliseFluids traceNet.env (netConn 0) (traceVals 0).toChk = ((traceVals 0).toChk, none) := by
    unfold normaliseFluids
    rw [if_neg (by decide), if_neg (by decide +kernel)]
    congr 1
    simp only [VVals.toChk, ChkState.mk.injEq, true_and]
    funext i f
    split
    · next h =>
      obtain ⟨rfl, hf⟩ := h
      have hf : f = "A" := by
        change f ∈ ["A"] at hf
        simpa using hf
      subst hf
      have e : (traceVals 0).fluid (netConn 0).fid "A" = 0 := by decide +kernel
      rw [e, zero_div]
    · rfl
  have h2 : checkConnection traceNet.env traceNet.fuel iter (netConn 0) (traceVals 0).toChk = ((traceVals 0).toChk, none) := by
    refine chk_andThen_idle _ _ _ ?_ rfl
    simp [checkState, traceNet, scalarNet, mixEnv, netConn]
  refine chk_andThen_idle _ _ _ (chk_forEach_idle _ _ _ fun c hc => ?_) ?_
  · simp only [traceNet, scalarNet, List.mem_singleton] at hc
    subst hc
    exact chk_andThen_idle _ _ _ h1 h2
  · split
    · refine chk_andThen_idle _ _ _ rfl (chk_forEach_idle _ _ _ fun c hc => ?_)
      simp only [traceNet, scalarNet, List.mem_singleton] at hc
      subst hc
      exact h2
    · rfl

theorem trace_step (iter : ℕ) (x : ℚ) (hx : x = 1 / 10000000 ∨ x = 0) :
    traceNet.step iter (traceVals x) = (traceVals 0, false, none) := by
  have hi : traceNet.increment (traceVals x) = some (fun _ => -(x - 1 / 10000000) / 1) :=
    scalarNet_increment _ _ 1 one_ne_zero _ _ _ _ _
  have hu : updateVariables traceNet.err traceNet.kind traceNet.lo traceNet.hi
      (incAt (fun _ : Fin 1 => -(x - 1 / 10000000) / 1)) traceNet.col traceNet.owners (traceVals x) = traceVals 0 := by
    simp only [traceNet, scalarNet, updateVariables, updateOne, incAt, zero_lt_one, dif_pos]
    apply VVals.ext_get
    intro o
    cases o with
    | prop b => rfl
    | comp i p => rfl
    | fluid b f =>
      simp only [VVals.get, traceVals, netVals]
      split
      · simp only [and_self, if_true, updFluid]
        rcases hx with rfl | rfl <;> norm_num
      · rfl
  unfold NetSys.step
  rw [hi]
  simp only [hu, trace_check]
  rfl

theorem trace_state (i : ℕ) : traceNet.state (traceVals (1 / 10000000)) (i + 1) = (traceVals 0, none) := by
  induction i with
  | zero =>
    simp only [NetSys.state]
    rw [trace_step 0 _ (Or.inl rfl)]
  | succ i ih =>
    unfold NetSys.state
    rw [ih]
    simp only [trace_step _ 0 (Or.inr rfl)]

/-- C97 is false for traces: a mass fraction of 10⁻⁷ satisfies all equations and limits, but the calculation which starts
there is reported as converged with the fraction 0. -/
theorem C97_trace_false : Spec.Solution traceNet (traceVals (1 / 10000000)) ∧
    (traceNet.jac (traceVals (1 / 10000000))).det ≠ 0 ∧ Spec.NothingToCorrect traceNet (traceVals (1 / 10000000)) ∧
    ∃ v1, traceNet.solve (1 / 1000) 4 50 (traceVals (1 / 10000000)) = .ok (v1, ⟨4, true, true, false⟩) ∧
      v1.fluid 0 "A" = 0 := by
  refine ⟨fun i => ?_, ?_, ⟨?_, ?_, ?_, ?_⟩, ?_⟩
  · change (1 / 10000000 - 1 / 10000000 : ℚ) = 0
    norm_num
  · unfold traceNet
    rw [scalarNet_det]
    norm_num
  · intro c hc
    simp only [traceNet, scalarNet, List.mem_singleton] at hc
    subst hc; rfl
  · intro c hc
    simp only [traceNet, scalarNet, List.mem_singleton] at hc
    subst hc
    exact feasible_mix _ _ _ _ _ (by decide +kernel) (Or.inr (by decide +kernel))
  · intro c _ fl hfl
    cases hfl
  · intro cp hcp
    simp [traceNet, scalarNet] at hcp
  · have hd : ∀ v, (traceNet.jac v).det ≠ 0 := fun v => by
      unfold traceNet
      rw [scalarNet_det]
      norm_num
    have o0 : traceNet.out (traceVals (1 / 10000000)) 0 = ⟨some 0, false⟩ := by
      have e : traceNet.nrm (traceNet.res (traceVals (1 / 10000000))) = 0 := by decide +kernel
      simp only [out_eq, NetSys.state, e, hd, decide_false]
    have o1 : ∀ i, traceNet.out (traceVals (1 / 10000000)) (i + 1) = ⟨some (1 / 10000000), false⟩ := by
      intro i
      have e : traceNet.nrm (traceNet.res (traceVals 0)) = 1 / 10000000 := by decide +kernel
      simp only [out_eq, trace_state, e, hd, decide_false]
    have ha : traceNet.out (traceVals (1 / 10000000)) =
        fun i => ⟨some (if i = 0 then 0 else 1 / 10000000), false⟩ := by
      funext i
      cases i with
      | zero => rw [o0]; rfl
      | succ i => rw [o1]; rfl
    refine ⟨traceVals 0, ?_, by decide +kernel⟩
    have hl : solveLoop (traceNet.out (traceVals (1 / 10000000))) (1 / 1000) 4 50 0 = ⟨4, true, true, false⟩ := by
      rw [ha]
      decide +kernel
    unfold NetSys.solve
    rw [hl]
    simp only [trace_state 3]

end Tespy
