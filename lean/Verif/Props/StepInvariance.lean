import Verif.Props.Repeat
import Verif.Model.Iterate

/-!
C98: the Newton step solves linear systems, and does not depend on order and scale of the equations.
-/
namespace Tespy
variable {K : Type} [Field K] [LinearOrder K] {n : ℕ}

namespace Spec

/-- The same network with equations and variables in another order: row `i` of `S'` is row `σ i` of `S`, column `j` of `S'` is
column `τ j` of `S`; all other settings agree. -/
structure Reordered (S S' : NetSys K n) (σ τ : Equiv.Perm (Fin n)) : Prop where
  res : ∀ v i, S'.res v i = S.res v (σ i)
  jac : ∀ v i j, S'.jac v i j = S.jac v (σ i) (τ j)
  owners : S'.owners.Perm S.owners
  nodup : S.owners.Nodup
  col : ∀ o ∈ S.owners, ∃ j : Fin n, S'.col o = j ∧ S.col o = τ j
  kind : S'.kind = S.kind
  lo : S'.lo = S.lo
  hi : S'.hi = S.hi
  err : S'.err = S.err
  env : S'.env = S.env
  fuel : S'.fuel = S.fuel
  conns : S'.conns = S.conns
  comps : S'.comps = S.comps

/-- The same network with every equation multiplied by a factor. -/
structure Scaled (S S' : NetSys K n) (c : Fin n → K) : Prop where
  factor : ∀ i, c i ≠ 0
  res : ∀ v i, S'.res v i = c i * S.res v i
  jac : ∀ v i j, S'.jac v i j = c i * S.jac v i j
  owners : S'.owners = S.owners
  col : S'.col = S.col
  kind : S'.kind = S.kind
  lo : S'.lo = S.lo
  hi : S'.hi = S.hi
  err : S'.err = S.err
  env : S'.env = S.env
  fuel : S'.fuel = S.fuel
  conns : S'.conns = S.conns
  comps : S'.comps = S.comps

/-- All equations are linear: row `i` is `∑ j, A i j * x j + b i`, where `x j` is the variable with column `j`. -/
structure Linear (S : NetSys K n) (x : Fin n → Owner) (A : Matrix (Fin n) (Fin n) K) (b : Fin n → K) : Prop where
  res : ∀ v i, S.res v i = (∑ j, A i j * v.get (x j)) + b i
  jac : ∀ v, S.jac v = A
  nodup : S.owners.Nodup
  mem : ∀ j, x j ∈ S.owners
  col : ∀ j, S.col (x j) = j

/-- The increments `d` are not limited: pressures fall by at most one half, mass fractions and component variables stay
within their bounds. -/
structure Unlimited (S : NetSys K n) (x : Fin n → Owner) (v : VVals K) (d : Fin n → K) : Prop where
  pressure : ∀ j b, x j = .prop b → S.kind b = .p → 0 < v.prop b ∧ -(v.prop b / 2) ≤ d j
  fluid : ∀ j b f, x j = .fluid b f → S.err ≤ v.fluid b f + d j ∧ v.fluid b f + d j ≤ 1 - S.err
  comp : ∀ j i p, x j = .comp i p → S.lo i p ≤ v.comp i p + d j ∧ v.comp i p + d j ≤ S.hi i p

end Spec

/-! ### order -/

theorem reordered_increment (S S' : NetSys K n) (σ τ : Equiv.Perm (Fin n)) (h : Spec.Reordered S S' σ τ) (v : VVals K) :
    S'.increment v = (S.increment v).map (fun d => d ∘ τ) := by
  have hj : S'.jac v = (S.jac v).submatrix σ τ := by
    funext i j
    exact h.jac v i j
  have hr : S'.res v = S.res v ∘ σ := by
    funext i
    exact h.res v i
  have hd : (S'.jac v).det = 0 ↔ (S.jac v).det = 0 := by
    have := Matrix.isUnit_submatrix_equiv (A := S.jac v) σ τ
    rw [Matrix.isUnit_iff_isUnit_det, Matrix.isUnit_iff_isUnit_det, isUnit_iff_ne_zero, isUnit_iff_ne_zero, ← hj] at this
    exact not_iff_not.mp this
  unfold NetSys.increment
  by_cases h0 : (S.jac v).det = 0
  · rw [if_pos h0, if_pos (hd.mpr h0)]
    rfl
  · rw [if_neg h0, if_neg (fun h1 => h0 (hd.mp h1))]
    simp only [Option.map_some, Option.some.injEq]
    rw [hj, hr, Matrix.inv_submatrix_equiv, Matrix.submatrix_mulVec_equiv]
    congr 2
    funext i
    simp

theorem reordered_update (S S' : NetSys K n) (σ τ : Equiv.Perm (Fin n)) (h : Spec.Reordered S S' σ τ) (v : VVals K)
    (d : Fin n → K) :
    updateVariables S'.err S'.kind S'.lo S'.hi (incAt (d ∘ τ)) S'.col S'.owners v =
      updateVariables S.err S.kind S.lo S.hi (incAt d) S.col S.owners v := by
  apply VVals.ext_get
  intro o
  rw [updateVariables_get _ _ _ _ _ _ _ (h.owners.nodup_iff.mpr h.nodup), updateVariables_get _ _ _ _ _ _ _ h.nodup, h.kind,
    h.lo, h.hi, h.err]
  by_cases ho : o ∈ S.owners
  · rw [if_pos ho, if_pos (h.owners.mem_iff.mpr ho)]
    obtain ⟨j, h1, h2⟩ := h.col o ho
    rw [h1, h2]
    simp [incAt]
  · rw [if_neg ho, if_neg (fun hc => ho (h.owners.mem_iff.mp hc))]

theorem reordered_step (S S' : NetSys K n) (σ τ : Equiv.Perm (Fin n)) (h : Spec.Reordered S S' σ τ) (iter : ℕ)
    (v : VVals K) : S'.step iter v = S.step iter v := by
  unfold NetSys.step
  rw [reordered_increment S S' σ τ h v]
  cases S.increment v with
  | none => rfl
  | some d =>
    simp only [Option.map_some]
    rw [reordered_update S S' σ τ h v d, h.kind, h.env, h.fuel, h.conns, h.comps]

theorem reordered_state (S S' : NetSys K n) (σ τ : Equiv.Perm (Fin n)) (h : Spec.Reordered S S' σ τ) (v : VVals K) (i : ℕ) :
    S'.state v i = S.state v i := by
  induction i with
  | zero => rfl
  | succ i ih =>
    simp only [NetSys.state]
    rw [ih]
    cases S.state v i with
    | mk v1 e =>
      cases e with
      | some e => rfl
      | none => simp only [reordered_step S S' σ τ h]

/-- C98 (order): the calculation does not depend on the order of equations and variables: same values in every iteration,
same result and same verdict. -/
theorem C98_order_partial (S S' : NetSys K n) (σ τ : Equiv.Perm (Fin n)) (h : Spec.Reordered S S' σ τ)
    (hn : ∀ r : Fin n → K, S'.nrm (fun i => r (σ i)) = S.nrm r) (thr : K) (minIter : ℤ) (maxIter : ℕ) (v : VVals K) :
    S'.solve thr minIter maxIter v = S.solve thr minIter maxIter v := by
  have hs := reordered_state S S' σ τ h v
  have ho : S'.out v = S.out v := by
    funext i
    simp only [out_eq]
    rw [hs i]
    generalize (S.state v i).1 = w
    have e1 : S'.nrm (S'.res w) = S.nrm (S.res w) := by
      have : S'.res w = fun i => S.res w (σ i) := funext (h.res w)
      rw [this, hn]
    have e2 : (S'.jac w).det = 0 ↔ (S.jac w).det = 0 := by
      have h1 := reordered_increment S S' σ τ h w
      unfold NetSys.increment at h1
      by_cases a : (S'.jac w).det = 0 <;> by_cases b : (S.jac w).det = 0 <;> simp [a, b] at h1 ⊢
    rw [e1, decide_eq_decide.mpr e2]
  unfold NetSys.solve
  rw [ho]
  simp only [hs]

/-! ### scale -/

theorem scaled_increment (S S' : NetSys K n) (c : Fin n → K) (h : Spec.Scaled S S' c) (v : VVals K) :
    S'.increment v = S.increment v := by
  have hj : S'.jac v = Matrix.diagonal c * S.jac v := by
    funext i j
    rw [Matrix.diagonal_mul]
    exact h.jac v i j
  have hr : S'.res v = (Matrix.diagonal c).mulVec (S.res v) := by
    funext i
    rw [Matrix.mulVec_diagonal]
    exact h.res v i
  have hc : (Matrix.diagonal c).det ≠ 0 := by
    rw [Matrix.det_diagonal]
    exact Finset.prod_ne_zero_iff.mpr fun i _ => h.factor i
  unfold NetSys.increment
  rw [hj, Matrix.det_mul]
  by_cases h0 : (S.jac v).det = 0
  · rw [if_pos h0, if_pos (by rw [h0, mul_zero])]
  · rw [if_neg h0, if_neg (mul_ne_zero hc h0), hr, Matrix.mul_inv_rev, ← Matrix.mulVec_neg, ← Matrix.mulVec_mulVec,
      Matrix.mulVec_mulVec (M := (Matrix.diagonal c)⁻¹), Matrix.nonsing_inv_mul _ hc.isUnit, Matrix.one_mulVec]

/-- C98 (scale): multiplying equations by constants does not change the values of any iteration. -/
theorem C98_scale_partial (S S' : NetSys K n) (c : Fin n → K) (h : Spec.Scaled S S' c) (v : VVals K) (i : ℕ) :
    S'.state v i = S.state v i := by
  have hstep : ∀ iter v, S'.step iter v = S.step iter v := by
    intro iter v
    unfold NetSys.step
    rw [scaled_increment S S' c h v, h.err, h.kind, h.lo, h.hi, h.col, h.owners, h.env, h.fuel, h.conns, h.comps]
  induction i with
  | zero => rfl
  | succ i ih =>
    simp only [NetSys.state]
    rw [ih]
    cases S.state v i with
    | mk v1 e =>
      cases e with
      | some e => rfl
      | none => simp only [hstep]

/-- C98 is false for the verdict: the equation m² = 1 is solved correctly from 1000 kg/s (m = 1 within 10⁻³); multiplied by
10⁻⁸ the calculation is reported as converged after four iterations with a mass flow of more than 60 kg/s. -/
theorem C98_scale_false :
    ((oneEquation (fun m : ℚ => m ^ 2 - 1) (fun m => 2 * m)).solve (1 / 1000) 4 50 1000).2.converged = true ∧
    |((oneEquation (fun m : ℚ => m ^ 2 - 1) (fun m => 2 * m)).solve (1 / 1000) 4 50 1000).1 - 1| < 1 / 1000 ∧
    ((oneEquation (fun m : ℚ => (m ^ 2 - 1) / 10 ^ 8) (fun m => 2 * m / 10 ^ 8)).solve (1 / 1000) 4 50 1000).2 =
      ⟨4, true, true, false⟩ ∧
    60 < ((oneEquation (fun m : ℚ => (m ^ 2 - 1) / 10 ^ 8) (fun m => 2 * m / 10 ^ 8)).solve (1 / 1000) 4 50 1000).1 := by
  refine ⟨by decide +kernel, by decide +kernel, by decide +kernel, by decide +kernel⟩

/-! ### linear equations -/

/-- the values after an unlimited step satisfy linear equations -/
theorem linear_update [IsStrictOrderedRing K] (S : NetSys K n) (x : Fin n → Owner) (A : Matrix (Fin n) (Fin n) K)
    (b : Fin n → K) (hl : Spec.Linear S x A b) (hdet : A.det ≠ 0) (v : VVals K)
    (hu : Spec.Unlimited S x v (A⁻¹.mulVec (-(S.res v)))) :
    Spec.Solution S (updateVariables S.err S.kind S.lo S.hi (incAt (A⁻¹.mulVec (-(S.res v)))) S.col S.owners v) := by
  set d := A⁻¹.mulVec (-(S.res v)) with hd
  have hg : ∀ j, (updateVariables S.err S.kind S.lo S.hi (incAt d) S.col S.owners v).get (x j) = v.get (x j) + d j := by
    intro j
    have hi : incAt d (S.col (x j)) = d j := by rw [hl.col j]; simp [incAt]
    have := C25_full_step S.err S.kind S.lo S.hi (incAt d) S.col S.owners hl.nodup v (x j) (hl.mem j)
      (fun b hb hk => by rw [hi]; exact hu.pressure j b hb hk)
      (fun b f hb => by rw [hi]; have := hu.fluid j b f hb; rw [hb]; exact this)
      (fun i p hb => by rw [hi]; have := hu.comp j i p hb; rw [hb]; exact this)
    rw [this, hi]
  intro i
  rw [hl.res]
  simp only [hg]
  have h1 : A.mulVec d = -(S.res v) := by
    rw [hd, Matrix.mulVec_mulVec, Matrix.mul_nonsing_inv _ hdet.isUnit, Matrix.one_mulVec]
  have h2 := congrFun h1 i
  simp only [Matrix.mulVec, dotProduct, Pi.neg_apply, hl.res v i] at h2
  have h3 : ∑ j, A i j * (v.get (x j) + d j) = (∑ j, A i j * v.get (x j)) + ∑ j, A i j * d j := by
    rw [← Finset.sum_add_distrib]
    exact Finset.sum_congr rfl fun j _ => mul_add _ _ _
  rw [h3, h2]
  ring

/-- the loop for residuals which are zero from the second iteration on -/
theorem solveLoop_second_zero [IsStrictOrderedRing K] (out : ℕ → Iter K) (h0 : (out 0).linDep = false)
    (ho : ∀ i, out (i + 1) = ⟨some 0, false⟩) (thr : K) (ht : 0 < thr) (minIter : ℤ) (h3 : 3 ≤ minIter)
    (hmin : minIter ≤ 42) (rem i : ℕ) (hi : (i : ℤ) ≤ minIter - 1) (hrem : minIter ≤ i + rem) :
    solveLoop out thr minIter rem i = ⟨minIter.toNat, true, true, false⟩ := by
  have hd : ∀ i, (out i).linDep = false := by
    intro i
    cases i with
    | zero => exact h0
    | succ i => rw [ho]
  induction rem generalizing i with
  | zero => omega
  | succ rem ih =>
    by_cases hs : (i : ℤ) ≥ minIter - 1
    · have h2 : ∃ k, i = k + 2 := ⟨i - 2, by omega⟩
      obtain ⟨k, rfl⟩ := h2
      have hl : lastTwo out thr (k + 2) = true := by
        have e : k + 2 - 1 = k + 1 := rfl
        simp [lastTwo, ho, ltF, ht]
      have hstop : stopNow out thr minIter (k + 2) = true := by
        simp only [stopNow, hl, Bool.and_true, Bool.or_eq_true, decide_eq_true_eq]
        exact Or.inl hs
      rw [solveLoop, if_pos hstop]
      have : k + 2 + 1 = minIter.toNat := by push_cast at hi hs; omega
      simp [hd, this]
    · have h2 : stopNow out thr minIter i = false := by simp [stopNow, hs, hd]
      have h4 : noProgress out i = false := by
        have : ¬ i > 40 := by omega
        simp [noProgress, this]
      rw [solveLoop, h2, h4]
      simp only [Bool.false_eq_true, if_false]
      exact ih (i + 1) (by push_cast; omega) (by push_cast at hrem ⊢; omega)

/-- C98 (linear systems): if all equations are linear and the first step is not limited, the calculation ends at the exact
solution after the demanded number of iterations (3 to 42), from any starting values. -/
theorem C98_linear_partial [IsStrictOrderedRing K] (S : NetSys K n) (x : Fin n → Owner) (A : Matrix (Fin n) (Fin n) K)
    (b : Fin n → K) (hl : Spec.Linear S x A b) (hdet : A.det ≠ 0) (h0 : 0 < S.err) (h1 : S.err ≤ 1) (hn : S.nrm 0 = 0)
    (v w : VVals K) (hu : Spec.Unlimited S x v (A⁻¹.mulVec (-(S.res v))))
    (hw : ∀ o, w.get o = v.get o + if o ∈ S.owners then incAt (A⁻¹.mulVec (-(S.res v))) (S.col o) else 0)
    (hown : ∀ o ∈ S.owners, ∃ j, o = x j)
    (hset : Spec.Settled S w) (hc : Spec.NothingToCorrect S w) (thr : K) (ht : 0 < thr) (minIter : ℤ) (h3 : 3 ≤ minIter)
    (hmin : minIter ≤ 42) (maxIter : ℕ) (hmax : minIter ≤ maxIter) :
    Spec.Solution S w ∧ S.solve thr minIter maxIter v = .ok (w, ⟨minIter.toNat, true, true, false⟩) := by
  have hup : updateVariables S.err S.kind S.lo S.hi (incAt (A⁻¹.mulVec (-(S.res v)))) S.col S.owners v = w := by
    apply VVals.ext_get
    intro o
    rw [hw o]
    by_cases ho : o ∈ S.owners
    · rw [if_pos ho]
      obtain ⟨j, rfl⟩ := hown o ho
      have hi : incAt (A⁻¹.mulVec (-(S.res v))) (S.col (x j)) = A⁻¹.mulVec (-(S.res v)) j := by
        rw [hl.col j]; simp [incAt]
      exact C25_full_step S.err S.kind S.lo S.hi (incAt _) S.col S.owners hl.nodup v (x j) (hl.mem j)
        (fun b hb hk => by rw [hi]; exact hu.pressure j b hb hk)
        (fun b f hb => by rw [hi]; have := hu.fluid j b f hb; rw [hb]; exact this)
        (fun i p hb => by rw [hi]; have := hu.comp j i p hb; rw [hb]; exact this)
    · rw [if_neg ho, updateVariables_get _ _ _ _ _ _ _ hl.nodup, if_neg ho, add_zero]
  have hsol : Spec.Solution S w := by
    have := linear_update S x A b hl hdet v hu
    rwa [hup] at this
  refine ⟨hsol, ?_⟩
  have hinc : S.increment v = some (A⁻¹.mulVec (-(S.res v))) := by
    unfold NetSys.increment
    rw [hl.jac v, if_neg hdet]
  have hfirst : S.step 0 v = (w, false, none) := by
    unfold NetSys.step
    rw [hinc]
    simp only [hup, checkBounds_idle S 0 w hc]
    rfl
  have hreg : (S.jac w).det ≠ 0 := by rw [hl.jac]; exact hdet
  have hst : ∀ i, S.state v (i + 1) = (w, none) := by
    intro i
    induction i with
    | zero => simp only [NetSys.state, hfirst]
    | succ i ih =>
      unfold NetSys.state
      rw [ih]
      simp only [step_fixed S _ w hsol hreg h0 h1 hset hc]
  have hr : S.res w = 0 := funext hsol
  have hd0 : (S.out v 0).linDep = false := by
    simp [out_eq, NetSys.state, hl.jac, hdet]
  have ho : ∀ i, S.out v (i + 1) = ⟨some 0, false⟩ := by
    intro i
    simp only [out_eq]
    rw [hst i]
    simp [hr, hn, hreg]
  have hloop := solveLoop_second_zero (S.out v) hd0 ho thr ht minIter h3 hmin maxIter 0 (by push_cast; omega)
    (by push_cast; omega)
  unfold NetSys.solve
  rw [hloop]
  obtain ⟨k, hk⟩ : ∃ k, minIter.toNat = k + 1 := ⟨minIter.toNat - 1, by omega⟩
  simp only [hk, hst]

/-- C98 (singular systems): if the equations have no unique linear solution at the starting values, the calculation ends
after the first iteration, is reported as linearly dependent and not as converged, and changes no value. -/
theorem C98_singular (S : NetSys K n) (v : VVals K) (hdet : (S.jac v).det = 0) (thr : K) (minIter : ℤ) (maxIter : ℕ)
    (hmax : 1 ≤ maxIter) : S.solve thr minIter maxIter v = .ok (v, ⟨1, false, true, true⟩) := by
  obtain ⟨k, rfl⟩ : ∃ k, maxIter = k + 1 := ⟨maxIter - 1, by omega⟩
  have hl : (S.out v 0).linDep = true := by simp [out_eq, NetSys.state, hdet]
  have hstop : stopNow (S.out v) thr minIter 0 = true := by simp [stopNow, hl]
  have hs : S.step 0 v = (v, true, none) := by
    unfold NetSys.step NetSys.increment
    rw [if_pos hdet]
  unfold NetSys.solve
  rw [solveLoop, if_pos hstop]
  simp [hl, NetSys.state, hs]

/-! ### exceptions -/

theorem solveLoop_iters_ge (out : ℕ → Iter K) (thr : K) (minIter : ℤ) (rem i : ℕ) (h : 1 ≤ rem) :
    i < (solveLoop out thr minIter rem i).iters := by
  induction rem generalizing i with
  | zero => omega
  | succ rem ih =>
    rw [solveLoop]
    split
    · exact Nat.lt_succ_self i
    · split
      · exact Nat.lt_succ_self i
      · cases rem with
        | zero => simp [solveLoop]
        | succ rem => exact lt_trans (Nat.lt_succ_self i) (ih (i + 1) (by omega))

/-- the loop performs the iterations before the demanded minimum -/
theorem solveLoop_reaches (out : ℕ → Iter K) (thr : K) (minIter : ℤ) (k : ℕ) (hreg : ∀ j, j < k → (out j).linDep = false)
    (hk : (k : ℤ) < minIter) (h40 : k ≤ 41) (rem i : ℕ) (hrem : k < i + rem) (hr : 1 ≤ rem) :
    k < (solveLoop out thr minIter rem i).iters := by
  induction rem generalizing i with
  | zero => omega
  | succ rem ih =>
    by_cases hik : k ≤ i
    · exact lt_of_le_of_lt hik (solveLoop_iters_ge out thr minIter _ i hr)
    · have h2 : stopNow out thr minIter i = false := by
        have : ¬ (i : ℤ) ≥ minIter - 1 := by omega
        simp [stopNow, this, hreg i (by omega)]
      have h3 : noProgress out i = false := by
        have : ¬ i > 40 := by omega
        simp [noProgress, this]
      rw [solveLoop, h2, h3]
      simp only [Bool.false_eq_true, if_false]
      exact ih (i + 1) (by omega) (by omega)

/-- C98 (exceptions): an exception of iteration `k` (one of the demanded iterations, at most the 42nd) ends the calculation with
that exception: nothing is reported as a result. -/
theorem C98_exception (S : NetSys K n) (v0 v : VVals K) (e : PyErr) (k : ℕ) (hk : S.state v0 k = (v, none))
    (he : (S.step k v).2.2 = some e) (hreg : ∀ j, j < k → (S.jac (S.state v0 j).1).det ≠ 0) (thr : K) (minIter : ℤ)
    (hmin : (k : ℤ) < minIter) (h40 : k ≤ 41) (maxIter : ℕ) (hmax : k < maxIter) :
    S.solve thr minIter maxIter v0 = .error e := by
  have hst : ∀ j, (S.state v0 (k + 1 + j)).2 = some e := by
    intro j
    induction j with
    | zero => simp only [Nat.add_zero, NetSys.state, hk, he]
    | succ j ih =>
      have : k + 1 + (j + 1) = (k + 1 + j) + 1 := by omega
      rw [this, NetSys.state]
      rcases hs : S.state v0 (k + 1 + j) with ⟨w, _ | e'⟩
      · rw [hs] at ih; cases ih
      · rw [hs] at ih; exact ih
  have hit := solveLoop_reaches (S.out v0) thr minIter k
    (fun j hj => by simp [out_eq, hreg j hj]) hmin h40 maxIter 0 (by omega) (by omega)
  obtain ⟨j, hj⟩ : ∃ j, (solveLoop (S.out v0) thr minIter maxIter 0).iters = k + 1 + j :=
    ⟨(solveLoop (S.out v0) thr minIter maxIter 0).iters - (k + 1), by omega⟩
  have h := hst j
  unfold NetSys.solve
  simp only [hj]
  rcases hs : S.state v0 (k + 1 + j) with ⟨w, _ | e'⟩
  · rw [hs] at h; cases h
  · rw [hs] at h
    cases h
    rfl

/-! ### concrete networks -/

/-- the increment is the solution of the linear system -/
theorem increment_of_mulVec (S : NetSys K n) (v : VVals K) (d : Fin n → K) (hd : (S.jac v).det ≠ 0)
    (h : (S.jac v).mulVec d = -(S.res v)) : S.increment v = some d := by
  unfold NetSys.increment
  rw [if_neg hd, ← h, Matrix.mulVec_mulVec, Matrix.nonsing_inv_mul _ hd.isUnit, Matrix.one_mulVec]

/-- A turbine with two unknown mass flows, m₀ - m₁ = 0 and m₀ + m₁ = 2. -/
def massNet : NetSys ℚ 2 where
  owners := [.prop 0, .prop 3]
  col o := if o = .prop 0 then 0 else 1
  kind := netKind
  lo _ _ := 0
  hi _ _ := 1
  err := 1 / 1000000
  res v := ![v.prop 0 - v.prop 3, v.prop 0 + v.prop 3 - 2]
  jac _ := !![1, -1; 1, 1]
  nrm r := |r 0| + |r 1|
  env := mixEnv (fun k i => k == .m && (i == 0 || i == 3)) (fun _ => ["A"]) (fun _ => [])
  fuel := 9
  conns := [netConn 0, netConn 1]
  comps := [.turbine (netConn 0) (netConn 1)]

/-- The same network with the second equation first and the second variable first. -/
def massNetSwapped : NetSys ℚ 2 :=
  { massNet with
    owners := [.prop 3, .prop 0]
    col := fun o => if o = .prop 0 then 1 else 0
    res := fun v => ![v.prop 0 + v.prop 3 - 2, v.prop 0 - v.prop 3]
    jac := fun _ => !![1, 1; -1, 1] }

/-- The same network with the equations multiplied by 3 and -1/2. -/
def massNetScaled : NetSys ℚ 2 :=
  { massNet with
    res := fun v => ![3 * (v.prop 0 - v.prop 3), -1 / 2 * (v.prop 0 + v.prop 3 - 2)]
    jac := fun _ => !![3, -3; -1 / 2, -1 / 2] }

/-- Starting values 5 kg/s and 7 kg/s. -/
def massStart : VVals ℚ :=
  { netVals (fun _ _ => 1) with prop := fun b => if b = 0 then 5 else if b = 3 then 7 else (netVals fun _ _ => 1).prop b }

/-- The hypotheses of `C98_order_partial` are met. -/
example : Spec.Reordered massNet massNetSwapped (Equiv.swap 0 1) (Equiv.swap 0 1) ∧
    ∀ r : Fin 2 → ℚ, massNetSwapped.nrm (fun i => r (Equiv.swap 0 1 i)) = massNet.nrm r := by
  refine ⟨⟨fun v i => ?_, fun v i j => ?_, List.Perm.swap _ _ _, by decide, fun o ho => ?_, rfl, rfl, rfl, rfl, rfl, rfl, rfl, rfl⟩,
    fun r => ?_⟩
  · fin_cases i <;> simp [massNet, massNetSwapped]
  · fin_cases i <;> fin_cases j <;> simp [massNet, massNetSwapped]
  · simp only [massNet, List.mem_cons, List.not_mem_nil, or_false] at ho
    rcases ho with rfl | rfl
    · exact ⟨1, by decide, by decide⟩
    · exact ⟨0, by decide, by decide⟩
  · simp [massNetSwapped, massNet, add_comm]

/-- The hypotheses of `C98_scale_partial` are met. -/
example : Spec.Scaled massNet massNetScaled ![3, -1 / 2] := by
  refine ⟨fun i => ?_, fun v i => ?_, fun v i j => ?_, rfl, rfl, rfl, rfl, rfl, rfl, rfl, rfl, rfl, rfl⟩
  · fin_cases i <;> norm_num
  · fin_cases i <;> simp [massNet, massNetScaled]
  · fin_cases i <;> fin_cases j <;> norm_num [massNet, massNetScaled]

/-- The hypotheses of `C98_linear_partial` are met: from 5 kg/s and 7 kg/s the calculation ends with 1 kg/s and 1 kg/s. -/
example : Spec.Solution massNet (netVals fun _ _ => 1) ∧
    massNet.solve (1 / 1000) 4 50 massStart = .ok (netVals fun _ _ => 1, ⟨4, true, true, false⟩) := by
  have hl : Spec.Linear massNet ![.prop 0, .prop 3] !![1, -1; 1, 1] ![0, -2] := by
    refine ⟨fun v i => ?_, fun _ => rfl, by decide, fun j => ?_, fun j => ?_⟩
    · fin_cases i
      · simp [massNet, Fin.sum_univ_two, VVals.get, sub_eq_add_neg]
      · simp [massNet, Fin.sum_univ_two, VVals.get, sub_eq_add_neg]
    · fin_cases j <;> decide
    · fin_cases j <;> decide
  have hdet : (!![1, -1; 1, 1] : Matrix (Fin 2) (Fin 2) ℚ).det ≠ 0 := by
    rw [Matrix.det_fin_two_of]; norm_num
  have hd : (!![1, -1; 1, 1] : Matrix (Fin 2) (Fin 2) ℚ)⁻¹.mulVec (-(massNet.res massStart)) = ![-4, -6] := by
    have e : (!![1, -1; 1, 1] : Matrix (Fin 2) (Fin 2) ℚ).mulVec ![-4, -6] = -(massNet.res massStart) := by
      funext i
      fin_cases i <;> simp [massNet, massStart, Matrix.mulVec, dotProduct, Fin.sum_univ_two] <;> norm_num
    rw [← e, Matrix.mulVec_mulVec, Matrix.nonsing_inv_mul _ hdet.isUnit, Matrix.one_mulVec]
  refine C98_linear_partial massNet ![.prop 0, .prop 3] _ _ hl hdet (by simp [massNet]) (by simp only [massNet]; norm_num)
    (by simp [massNet]) massStart _ ?_ ?_ ?_ ?_ ?_ _ (by norm_num) 4 (by norm_num) (by norm_num) 50 (by norm_num)
  · refine ⟨fun j b hb hk => ?_, fun j b f hb => ?_, fun j i p hb => ?_⟩
    · fin_cases j
      · cases hb; simp [massNet, netKind] at hk
      · cases hb; simp [massNet, netKind] at hk
    · fin_cases j <;> cases hb
    · fin_cases j <;> cases hb
  · intro o
    rw [hd]
    cases o with
    | prop b =>
      by_cases h0 : b = 0
      · subst h0; simp [massNet, massStart, netVals, VVals.get, incAt]; norm_num
      · by_cases h3 : b = 3
        · subst h3; simp [massNet, massStart, netVals, VVals.get, incAt]; norm_num
        · simp [massNet, massStart, VVals.get, h0, h3]
    | fluid b f => simp [massNet, massStart, VVals.get]
    | comp i p => simp [massNet, massStart, VVals.get]
  · intro o ho
    simp only [massNet, List.mem_cons, List.not_mem_nil, or_false] at ho
    rcases ho with rfl | rfl
    · exact ⟨0, rfl⟩
    · exact ⟨1, rfl⟩
  · exact ⟨fun b f h => by simp [massNet] at h, fun i p h => by simp [massNet] at h⟩
  · constructor
    · intro c hc
      simp only [massNet, List.mem_cons, List.not_mem_nil, or_false] at hc
      rcases hc with rfl | rfl <;> rfl
    · intro c hc
      simp only [massNet, List.mem_cons, List.not_mem_nil, or_false] at hc
      rcases hc with rfl | rfl <;> exact feasible_mix _ _ _ _ _ (by decide +kernel) (Or.inl rfl)
    · intro c _ fl hfl
      cases hfl
    · intro cp hcp
      simp only [massNet, List.mem_singleton] at hcp
      subst hcp
      exact ⟨rfl, by decide +kernel, by decide +kernel⟩

/-- Two compressors in series with an unknown pressure between them, p² = 104; `comps` is the list of components. -/
def seriesNet (comps : List (ChkComp ℚ)) : NetSys ℚ 1 := scalarNet (.prop 4) (fun p => p ^ 2 - 104) (fun p => 2 * p) netKind
  (mixEnv (fun k i => k == .p && i == 4) (fun _ => ["A"]) (fun _ => [])) [netConn 0, netConn 1, netConn 2] comps

/-- 10 Pa before the first, 26 Pa after the first and 21/2 Pa after the second compressor. -/
def seriesStart : VVals ℚ :=
  { netVals (fun _ _ => 1) with
    prop := fun b => if b = 4 then 26 else if b = 7 then 21 / 2 else if b = 5 then 300 else (netVals fun _ _ => 1).prop b }

/-- C98 is false for the order of the components: the values after one iteration depend on which of two compressors has been
added to the network first. -/
theorem C98_check_order_false :
    (((seriesNet [.compressor (netConn 0) (netConn 1), .compressor (netConn 1) (netConn 2)]).step 0 seriesStart).1.prop 4 =
        189 / 20) ∧
    (((seriesNet [.compressor (netConn 1) (netConn 2), .compressor (netConn 0) (netConn 1)]).step 0 seriesStart).1.prop 4 =
        11) := by
  have hi : ∀ l, (seriesNet l).increment seriesStart = some (fun _ => -11) := by
    intro l
    refine increment_of_mulVec _ _ _ ?_ ?_
    · unfold seriesNet
      rw [scalarNet_det]
      decide +kernel
    · funext i
      simp only [Matrix.mulVec, dotProduct, Finset.univ_unique, Finset.sum_singleton, seriesNet, scalarNet, Pi.neg_apply,
        seriesStart, VVals.get]
      norm_num
  constructor <;>
  · unfold NetSys.step
    rw [hi]
    decide +kernel

/-- The hypothesis of `C98_singular` is met: an equation which does not depend on the unknown enthalpy. -/
example : (scalarNet (.prop 5) (fun _ => 1) (fun _ => 0) netKind (mixEnv noVar (fun _ => ["A"]) (fun _ => []))
    [netConn 0, netConn 1] [.turbine (netConn 0) (netConn 1)]).solve (1 / 1000) 4 50 (netVals fun _ _ => 1) =
      .ok (netVals fun _ _ => 1, ⟨1, false, true, true⟩) :=
  C98_singular _ _ (by rw [scalarNet_det]) _ _ _ (by norm_num)

/-- The hypotheses of `C98_exception` are met: the specific volume at the inlet of a pump cannot be calculated. -/
example : (scalarNet (.prop 3) (fun m => m - 1) (fun _ => 1) netKind
    (mixEnv (fun k i => k == .m && i == 3) (fun _ => ["A"]) (fun _ => [])) [netConn 1, netConn 0]
    [.pump (netConn 1) (netConn 0) (some (fun _ => .error .valueError, [0, 2, 4]))]).solve (1 / 1000) 4 50
      (netVals fun _ _ => 1) = .error .valueError := by
  refine C98_exception _ _ (netVals fun _ _ => 1) _ 0 rfl ?_ (fun j hj => absurd hj (by omega)) _ _ (by norm_num) (by norm_num) _
    (by norm_num)
  unfold NetSys.step
  rw [scalarNet_increment _ _ 1 one_ne_zero]
  decide +kernel

end Tespy
