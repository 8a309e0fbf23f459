import Mathlib.Topology.Algebra.Module.FiniteDimension
import Mathlib.Analysis.Calculus.MeanValue
import Mathlib.Analysis.Calculus.FDeriv.Add
import Mathlib.Analysis.Calculus.FDeriv.Comp
import Mathlib.Analysis.Calculus.Deriv.Comp
import Mathlib.Analysis.Calculus.Deriv.Pow
import Mathlib.LinearAlgebra.Matrix.ToLinearEquiv
import Verif.Props.StepInvariance

/-!
C100: from starting values close to a regular solution the calculation converges to it.
-/
namespace Tespy
open Set Metric
variable {n : ℕ}

namespace Spec

/-- The values `v` with the variables `x j` replaced by `u j`. -/
noncomputable def values (v : VVals ℝ) (x : Fin n → Owner) (u : Fin n → ℝ) : VVals ℝ :=
  open Classical in
  { prop := fun b => if h : ∃ j, x j = .prop b then u h.choose else v.prop b
    fluid := fun b f => if h : ∃ j, x j = .fluid b f then u h.choose else v.fluid b f
    comp := fun i p => if h : ∃ j, x j = .comp i p then u h.choose else v.comp i p }

/-- The values of a network at the point `y`: variable `j` has the value `w j * y j`, where `w j` is a typical size of the
variable, so that distances of points do not depend on the units. -/
noncomputable def atPoint (v : VVals ℝ) (x : Fin n → Owner) (w y : Fin n → ℝ) : VVals ℝ :=
  values v x (fun j => w j * y j)

/-- `x` lists the variables of the network by column. -/
structure Numbered (S : NetSys ℝ n) (x : Fin n → Owner) : Prop where
  nodup : S.owners.Nodup
  mem : ∀ j, x j ∈ S.owners
  all : ∀ o ∈ S.owners, ∃ j, o = x j
  col : ∀ j, S.col (x j) = j

/-- The equations around the point `ys`, within the distance `ρ`: derivatives `A` exist and change by at most `L` per
distance, the jacobian of the program deviates from them by at most `ε`, it is invertible and its inverse has at most the
norm `β`, and the norm of the residuals is at most `M` per distance. -/
structure RegularSolution (S : NetSys ℝ n) (x : Fin n → Owner) (v : VVals ℝ) (w ys : Fin n → ℝ) (ρ L ε β M : ℝ)
    (A : (Fin n → ℝ) → (Fin n → ℝ) →L[ℝ] (Fin n → ℝ)) : Prop where
  solution : Solution S (atPoint v x w ys)
  size : ∀ j, 0 < w j
  radius : 0 ≤ ρ
  derivative : ∀ y ∈ closedBall ys ρ, HasFDerivAt (fun y => S.res (atPoint v x w y)) (A y) y
  change : ∀ y ∈ closedBall ys ρ, ∀ z ∈ closedBall ys ρ, ‖A y - A z‖ ≤ L * ‖y - z‖
  jacobian : ∀ y ∈ closedBall ys ρ, ∀ d : Fin n → ℝ, ‖(S.jac (atPoint v x w y)).mulVec (fun j => w j * d j) - A y d‖ ≤ ε * ‖d‖
  inverse : ∀ y ∈ closedBall ys ρ, ∀ d : Fin n → ℝ, ‖d‖ ≤ β * ‖(S.jac (atPoint v x w y)).mulVec (fun j => w j * d j)‖
  residual : ∀ y ∈ closedBall ys ρ, S.nrm (S.res (atPoint v x w y)) ≤ M * ‖y - ys‖
  nonneg : 0 ≤ L ∧ 0 ≤ ε ∧ 0 ≤ β ∧ 0 ≤ M

/-- Within the distance `ρ` of the point `ys` no increment is limited and the checks find nothing to correct: pressures are
positive and at least `5 ρ`, mass fractions and component variables keep their distance from their limits. -/
structure Interior (S : NetSys ℝ n) (x : Fin n → Owner) (v : VVals ℝ) (w ys : Fin n → ℝ) (ρ : ℝ) : Prop where
  pressure : ∀ j b, x j = .prop b → S.kind b = .p → 0 < ys j ∧ 5 * ρ ≤ ys j
  fluid : ∀ j b f, x j = .fluid b f → S.err ≤ w j * (ys j - ρ) ∧ w j * (ys j + ρ) ≤ 1 - S.err
  comp : ∀ j i p, x j = .comp i p → S.lo i p ≤ w j * (ys j - ρ) ∧ w j * (ys j + ρ) ≤ S.hi i p
  checks : ∀ y ∈ closedBall ys ρ, NothingToCorrect S (atPoint v x w y)

end Spec

/-! ### values -/

theorem values_get (v : VVals ℝ) (x : Fin n → Owner) (hx : Function.Injective x) (u : Fin n → ℝ) (j : Fin n) :
    (Spec.values v x u).get (x j) = u j := by
  have key : ∀ o (h : ∃ i, x i = o), o = x j → u h.choose = u j := by
    intro o h ho
    have := h.choose_spec
    rw [hx (this.trans ho)]
  cases ho : x j with
  | prop b =>
    have h : ∃ i, x i = .prop b := ⟨j, ho⟩
    simp only [Spec.values, VVals.get, dif_pos h]
    exact key _ h ho.symm
  | fluid b f =>
    have h : ∃ i, x i = .fluid b f := ⟨j, ho⟩
    simp only [Spec.values, VVals.get, dif_pos h]
    exact key _ h ho.symm
  | comp i p =>
    have h : ∃ k, x k = .comp i p := ⟨j, ho⟩
    simp only [Spec.values, VVals.get, dif_pos h]
    exact key _ h ho.symm

theorem values_get_other (v : VVals ℝ) (x : Fin n → Owner) (u : Fin n → ℝ) (o : Owner) (ho : ∀ j, o ≠ x j) :
    (Spec.values v x u).get o = v.get o := by
  have h : ¬ ∃ j, x j = o := fun ⟨j, hj⟩ => ho j hj.symm
  cases o <;> simp only [Spec.values, VVals.get, dif_neg h]

theorem numbered_injective {S : NetSys ℝ n} {x : Fin n → Owner} (h : Spec.Numbered S x) : Function.Injective x := by
  intro i j hij
  have h1 := h.col i
  rw [hij, h.col j] at h1
  exact Fin.ext h1.symm

/-! ### the error of one step -/

theorem newton_remainder {E G : Type} [NormedAddCommGroup E] [NormedSpace ℝ E] [NormedAddCommGroup G] [NormedSpace ℝ G]
    {F : E → G} {A : E → E →L[ℝ] G} {ys : E} {ρ L : ℝ}
    (hd : ∀ y ∈ closedBall ys ρ, HasFDerivAt F (A y) y)
    (hL : ∀ y ∈ closedBall ys ρ, ∀ z ∈ closedBall ys ρ, ‖A y - A z‖ ≤ L * ‖y - z‖)
    {y : E} (hy : y ∈ closedBall ys ρ) : ‖F y - F ys - A y (y - ys)‖ ≤ L / 2 * ‖y - ys‖ ^ 2 := by
  set e := y - ys with he
  have hmem : ∀ t ∈ Icc (0:ℝ) 1, ys + t • e ∈ closedBall ys ρ := by
    intro t ht
    rw [mem_closedBall, dist_eq_norm] at hy ⊢
    rw [add_sub_cancel_left, norm_smul, Real.norm_of_nonneg ht.1]
    calc t * ‖e‖ ≤ 1 * ‖e‖ := mul_le_mul_of_nonneg_right ht.2 (norm_nonneg _)
      _ = ‖e‖ := one_mul _
      _ ≤ ρ := hy
  have hder : ∀ t ∈ Icc (0:ℝ) 1, HasDerivAt (fun t : ℝ => F (ys + t • e) - F ys - t • A y e)
      (A (ys + t • e) e - A y e) t := by
    intro t ht
    have h1 : HasDerivAt (fun t : ℝ => ys + t • e) e t :=
      (((hasDerivAt_id t).smul_const e).const_add ys).congr_deriv (one_smul _ _)
    have h2 := (hd _ (hmem t ht)).comp_hasDerivAt t h1
    have h3 : HasDerivAt (fun t : ℝ => t • A y e) (A y e) t :=
      ((hasDerivAt_id t).smul_const (A y e)).congr_deriv (one_smul _ _)
    exact (h2.sub_const (F ys)).sub h3
  have hb : ∀ t : ℝ, HasDerivAt (fun t : ℝ => L * ‖e‖ ^ 2 * (t - t ^ 2 / 2)) (L * ‖e‖ ^ 2 * (1 - t)) t := by
    intro t
    exact (((hasDerivAt_id t).sub ((hasDerivAt_pow 2 t).div_const 2)).const_mul (L * ‖e‖ ^ 2)).congr_deriv
      (by norm_num)
  have := image_norm_le_of_norm_deriv_right_le_deriv_boundary
    (f := fun t : ℝ => F (ys + t • e) - F ys - t • A y e) (f' := fun t => A (ys + t • e) e - A y e)
    (fun t ht => (hder t ht).continuousAt.continuousWithinAt)
    (fun t ht => (hder t ⟨ht.1, ht.2.le⟩).hasDerivWithinAt) (by simp) hb
    (fun t ht => by
      have h1 : A (ys + t • e) e - A y e = (A (ys + t • e) - A y) e := rfl
      rw [h1]
      have h2 : ys + t • e - y = -((1 - t) • e) := by
        rw [he, sub_smul, one_smul]; abel
      have h3 := hL _ (hmem t ⟨ht.1, ht.2.le⟩) y hy
      rw [h2, norm_neg, norm_smul, Real.norm_of_nonneg (by linarith [ht.2.le])] at h3
      calc _ ≤ ‖A (ys + t • e) - A y‖ * ‖e‖ := ContinuousLinearMap.le_opNorm _ _
        _ ≤ L * ((1 - t) * ‖e‖) * ‖e‖ := mul_le_mul_of_nonneg_right h3 (norm_nonneg _)
        _ = L * ‖e‖ ^ 2 * (1 - t) := by ring)
    (show (1:ℝ) ∈ Icc (0:ℝ) 1 from ⟨zero_le_one, le_rfl⟩)
  have e1 : ys + e = y := by rw [he]; abel
  simp only [one_smul, e1] at this
  calc _ ≤ _ := this
    _ = L / 2 * ‖e‖ ^ 2 := by ring

variable {S : NetSys ℝ n} {x : Fin n → Owner} {v : VVals ℝ} {w ys : Fin n → ℝ} {ρ L ε β M : ℝ}
  {A : (Fin n → ℝ) → (Fin n → ℝ) →L[ℝ] (Fin n → ℝ)}

theorem regular_det (h : Spec.RegularSolution S x v w ys ρ L ε β M A) {y : Fin n → ℝ} (hy : y ∈ closedBall ys ρ) :
    (S.jac (Spec.atPoint v x w y)).det ≠ 0 := by
  intro h0
  obtain ⟨d, hd, hz⟩ := Matrix.exists_mulVec_eq_zero_iff.mpr h0
  have hi := h.inverse y hy (fun j => d j / w j)
  have e : (fun j => w j * (d j / w j)) = d := by
    funext j
    have := (h.size j).ne'
    field_simp
  rw [e, hz, norm_zero, mul_zero] at hi
  have h1 : (fun j => d j / w j) = 0 := norm_le_zero_iff.mp hi
  apply hd
  funext j
  have := congrFun h1 j
  simp only [Pi.zero_apply, div_eq_zero_iff] at this
  exact this.resolve_right (h.size j).ne'

/-- **C100 (one iteration).**  Within the distance `ρ` of a regular solution an iteration changes the variables only, raises
nothing, and multiplies the distance `e` from the solution by at most `β (L e / 2 + ε)`: the error is squared if the
jacobian is exact. -/
theorem C100_step (hN : Spec.Numbered S x) (h : Spec.RegularSolution S x v w ys ρ L ε β M A) (hI : Spec.Interior S x v w ys ρ)
    (hq : β * (L / 2 * ρ + ε) ≤ 1) (iter : ℕ) {y : Fin n → ℝ} (hy : y ∈ closedBall ys ρ) :
    ∃ y', S.step iter (Spec.atPoint v x w y) = (Spec.atPoint v x w y', false, none) ∧
      ‖y' - ys‖ ≤ β * (L / 2 * ‖y - ys‖ + ε) * ‖y - ys‖ := by
  obtain ⟨hL, hε, hβ, hM⟩ := h.nonneg
  have hx := numbered_injective hN
  have hdet := regular_det h hy
  set J := S.jac (Spec.atPoint v x w y) with hJ
  set d := J⁻¹.mulVec (-(S.res (Spec.atPoint v x w y))) with hdd
  have hJd : J.mulVec d = -(S.res (Spec.atPoint v x w y)) := by
    rw [hdd, Matrix.mulVec_mulVec, Matrix.mul_nonsing_inv _ hdet.isUnit, Matrix.one_mulVec]
  have hdist : ‖y - ys‖ ≤ ρ := by rwa [mem_closedBall, dist_eq_norm] at hy
  set y' : Fin n → ℝ := fun j => y j + d j / w j with hy'
  -- error
  have herr : ‖y' - ys‖ ≤ β * (L / 2 * ‖y - ys‖ + ε) * ‖y - ys‖ := by
    have h1 := h.inverse y hy (y' - ys)
    have e1 : J.mulVec (fun j => w j * (y' - ys) j)
        = (J.mulVec (fun j => w j * (y - ys) j) - A y (y - ys))
          - (S.res (Spec.atPoint v x w y) - S.res (Spec.atPoint v x w ys) - A y (y - ys)) := by
      have e2 : (fun j => w j * (y' - ys) j) = (fun j => w j * (y - ys) j) + d := by
        funext j
        have := (h.size j).ne'
        simp only [hy', Pi.sub_apply, Pi.add_apply]
        field_simp
        ring
      have e3 : S.res (Spec.atPoint v x w ys) = 0 := funext h.solution
      rw [e2, Matrix.mulVec_add, hJd, e3]
      abel
    rw [← hJ, e1] at h1
    have h2 := h.jacobian y hy (y - ys)
    have h3 := newton_remainder h.derivative h.change hy
    refine h1.trans ?_
    calc β * _ ≤ β * (ε * ‖y - ys‖ + L / 2 * ‖y - ys‖ ^ 2) :=
          mul_le_mul_of_nonneg_left ((norm_sub_le _ _).trans (add_le_add h2 h3)) hβ
      _ = _ := by ring
  have hin : ‖y' - ys‖ ≤ ρ := by
    refine herr.trans ?_
    calc β * (L / 2 * ‖y - ys‖ + ε) * ‖y - ys‖ ≤ β * (L / 2 * ρ + ε) * ρ := by
          apply mul_le_mul _ hdist (norm_nonneg _)
          · have : 0 ≤ L / 2 * ρ := mul_nonneg (by linarith) h.radius
            exact mul_nonneg hβ (by linarith)
          · apply mul_le_mul_of_nonneg_left _ hβ
            have := mul_le_mul_of_nonneg_left hdist (show 0 ≤ L / 2 by linarith)
            linarith
      _ ≤ 1 * ρ := mul_le_mul_of_nonneg_right hq h.radius
      _ = ρ := one_mul ρ
  have hy'in : y' ∈ closedBall ys ρ := by rwa [mem_closedBall, dist_eq_norm]
  have comp : ∀ (z : Fin n → ℝ), ‖z - ys‖ ≤ ρ → ∀ j, ys j - ρ ≤ z j ∧ z j ≤ ys j + ρ := by
    intro z hz j
    have := (norm_le_pi_norm (z - ys) j).trans hz
    rw [Pi.sub_apply, Real.norm_eq_abs, abs_le] at this
    exact ⟨by linarith [this.1], by linarith [this.2]⟩
  have hnew : ∀ j, w j * y j + d j = w j * y' j := by
    intro j
    have := (h.size j).ne'
    simp only [hy']
    field_simp
  -- update
  have hup : updateVariables S.err S.kind S.lo S.hi (incAt d) S.col S.owners (Spec.atPoint v x w y) = Spec.atPoint v x w y' := by
    apply VVals.ext_get
    intro o
    by_cases ho : o ∈ S.owners
    · obtain ⟨j, rfl⟩ := hN.all o ho
      have hi : incAt d (S.col (x j)) = d j := by rw [hN.col j]; simp [incAt]
      have hg : (Spec.atPoint v x w y).get (x j) = w j * y j := values_get v x hx _ j
      have hg' : (Spec.atPoint v x w y').get (x j) = w j * y' j := values_get v x hx _ j
      rw [C25_full_step S.err S.kind S.lo S.hi (incAt d) S.col S.owners hN.nodup _ (x j) ho, hi, hg, hg', hnew]
      · intro b hb hk
        rw [hi]
        have hp : (Spec.atPoint v x w y).prop b = w j * y j := by rw [hb] at hg; exact hg
        obtain ⟨p1, p2⟩ := hI.pressure j b hb hk
        obtain ⟨c1, _⟩ := comp y hdist j
        obtain ⟨c3, _⟩ := comp y' hin j
        obtain ⟨_, c2⟩ := comp y hdist j
        have hw := h.size j
        rw [hp]
        have hpos : 0 < y j := by linarith [h.radius]
        refine ⟨mul_pos hw hpos, ?_⟩
        have e1 : d j = w j * (y' j - y j) := by have := hnew j; linarith [mul_sub (w j) (y' j) (y j)]
        rw [e1]
        have h4 : -(y j / 2) ≤ y' j - y j := by linarith
        have := mul_le_mul_of_nonneg_left h4 hw.le
        linarith [mul_neg (w j) (y j / 2)]
      · intro b f hb
        rw [hi, hg, hnew]
        obtain ⟨p1, p2⟩ := hI.fluid j b f hb
        obtain ⟨c1, c2⟩ := comp y' hin j
        exact ⟨p1.trans (mul_le_mul_of_nonneg_left c1 (h.size j).le),
          (mul_le_mul_of_nonneg_left c2 (h.size j).le).trans p2⟩
      · intro i p hb
        rw [hi, hg, hnew]
        obtain ⟨p1, p2⟩ := hI.comp j i p hb
        obtain ⟨c1, c2⟩ := comp y' hin j
        exact ⟨p1.trans (mul_le_mul_of_nonneg_left c1 (h.size j).le),
          (mul_le_mul_of_nonneg_left c2 (h.size j).le).trans p2⟩
    · have hno : ∀ j, o ≠ x j := fun j hj => ho (hj ▸ hN.mem j)
      rw [updateVariables_get _ _ _ _ _ _ _ hN.nodup, if_neg ho]
      unfold Spec.atPoint
      rw [values_get_other v x _ o hno, values_get_other v x _ o hno]
  refine ⟨y', ?_, herr⟩
  unfold NetSys.step NetSys.increment
  rw [if_neg hdet]
  dsimp only
  rw [← hdd, hup, checkBounds_idle S iter _ (hI.checks y' hy'in)]
  rfl

/-- the course of the iteration -/
theorem local_state (hN : Spec.Numbered S x) (h : Spec.RegularSolution S x v w ys ρ L ε β M A) (hI : Spec.Interior S x v w ys ρ)
    {q : ℝ} (hq : β * (L / 2 * ρ + ε) ≤ q) (hq1 : q ≤ 1) {y0 : Fin n → ℝ} (hy : y0 ∈ closedBall ys ρ) (k : ℕ) :
    ∃ y, S.state (Spec.atPoint v x w y0) k = (Spec.atPoint v x w y, none) ∧ y ∈ closedBall ys ρ ∧
      ‖y - ys‖ ≤ q ^ k * ‖y0 - ys‖ := by
  obtain ⟨hL, hε, hβ, hM⟩ := h.nonneg
  have hq0 : 0 ≤ q := (mul_nonneg hβ (add_nonneg (mul_nonneg (by linarith) h.radius) hε)).trans hq
  induction k with
  | zero => exact ⟨y0, rfl, hy, by simp⟩
  | succ k ih =>
    obtain ⟨y, e1, e2, e3⟩ := ih
    obtain ⟨y', s1, s2⟩ := C100_step hN h hI (hq.trans hq1) k e2
    have hdist : ‖y - ys‖ ≤ ρ := by rwa [mem_closedBall, dist_eq_norm] at e2
    have hrate : ‖y' - ys‖ ≤ q * ‖y - ys‖ := by
      refine s2.trans (mul_le_mul_of_nonneg_right ?_ (norm_nonneg _))
      refine le_trans (mul_le_mul_of_nonneg_left ?_ hβ) hq
      have := mul_le_mul_of_nonneg_left hdist (show 0 ≤ L / 2 by linarith)
      linarith
    refine ⟨y', ?_, ?_, ?_⟩
    · unfold NetSys.state
      rw [e1]
      simp only [s1]
    · rw [mem_closedBall, dist_eq_norm]
      refine hrate.trans ?_
      calc q * ‖y - ys‖ ≤ 1 * ρ := mul_le_mul hq1 hdist (norm_nonneg _) zero_le_one
        _ = ρ := one_mul _
    · refine hrate.trans ?_
      calc q * ‖y - ys‖ ≤ q * (q ^ k * ‖y0 - ys‖) := mul_le_mul_of_nonneg_left e3 hq0
        _ = q ^ (k + 1) * ‖y0 - ys‖ := by ring

/-- **C100 (convergence).**  A calculation which starts within the distance `ρ` of a regular solution, with
`q = β (L ρ / 2 + ε)` at most 1, reports convergence not later than after iteration `i`, the first one (at most the 42nd) which
the criterion reaches according to the rate `q`; every variable then differs from the solution by at most `q` to the power
of the number of iterations times the distance at the beginning, and no other value has been changed. -/
theorem C100_converges (hN : Spec.Numbered S x) (h : Spec.RegularSolution S x v w ys ρ L ε β M A)
    (hI : Spec.Interior S x v w ys ρ) {q : ℝ} (hq : β * (L / 2 * ρ + ε) ≤ q) (hq1 : q ≤ 1)
    {y0 : Fin n → ℝ} (hy : y0 ∈ closedBall ys ρ) (thr : ℝ) (minIter : ℤ) (maxIter i : ℕ) (h1 : 1 ≤ i) (h41 : i ≤ 41)
    (hmax : i < maxIter) (hmin : minIter ≤ i + 1) (hthr : M * (q ^ (i - 1) * ‖y0 - ys‖) < thr) :
    ∃ v' r, S.solve thr minIter maxIter (Spec.atPoint v x w y0) = .ok (v', r) ∧ r.converged = true ∧ r.iters ≤ i + 1 ∧
      (∀ j, |v'.get (x j) - w j * ys j| ≤ w j * (q ^ r.iters * ‖y0 - ys‖)) ∧
      (∀ o, o ∉ S.owners → v'.get o = v.get o) := by
  obtain ⟨hL, hε, hβ, hM⟩ := h.nonneg
  have hq0 : 0 ≤ q := (mul_nonneg hβ (add_nonneg (mul_nonneg (by linarith) h.radius) hε)).trans hq
  have hx := numbered_injective hN
  have hst := local_state hN h hI hq hq1 hy
  have hreg : ∀ k, (S.out (Spec.atPoint v x w y0) k).linDep = false := by
    intro k
    obtain ⟨y, e1, e2, _⟩ := hst k
    simp [out_eq, e1, regular_det h e2]
  have hnorm : ∀ k, i - 1 ≤ k → ∃ r, (S.out (Spec.atPoint v x w y0) k).norm = some r ∧ r < thr := by
    intro k hk
    obtain ⟨y, e1, e2, e3⟩ := hst k
    refine ⟨S.nrm (S.res (Spec.atPoint v x w y)), by simp [out_eq, e1], ?_⟩
    refine lt_of_le_of_lt ((h.residual y e2).trans (mul_le_mul_of_nonneg_left ?_ hM)) hthr
    exact e3.trans (mul_le_mul_of_nonneg_right (pow_le_pow_of_le_one hq0 hq1 hk) (norm_nonneg _))
  have hconv : ConvergedAt (S.out (Spec.atPoint v x w y0)) thr minIter i :=
    ⟨hmin, hnorm i (by omega), fun _ => hnorm (i - 1) le_rfl, hreg i⟩
  obtain ⟨c1, c2⟩ := C23_complete (S.out (Spec.atPoint v x w y0)) thr minIter maxIter i hmax hconv
    (fun j hj => ⟨hreg j, fun hs => by have := hs.1; omega⟩)
  obtain ⟨y, e1, e2, e3⟩ := hst (solveLoop (S.out (Spec.atPoint v x w y0)) thr minIter maxIter 0).iters
  refine ⟨Spec.atPoint v x w y, solveLoop (S.out (Spec.atPoint v x w y0)) thr minIter maxIter 0, ?_, c1, c2, ?_, ?_⟩
  · unfold NetSys.solve
    simp only [e1]
  · intro j
    have hg : (Spec.atPoint v x w y).get (x j) = w j * y j := values_get v x hx _ j
    rw [hg, ← mul_sub, abs_mul, abs_of_pos (h.size j)]
    apply mul_le_mul_of_nonneg_left _ (h.size j).le
    have := norm_le_pi_norm (y - ys) j
    rw [Pi.sub_apply, Real.norm_eq_abs] at this
    exact this.trans e3
  · intro o ho
    exact values_get_other v x _ o fun j hj => ho (hj ▸ hN.mem j)

/-- **C100 (one solution).**  Within the distance `ρ` there is no other solution, if the rate is below 1. -/
theorem C100_unique (h : Spec.RegularSolution S x v w ys ρ L ε β M A) (hq : β * (L / 2 * ρ + ε) < 1) {z : Fin n → ℝ}
    (hz : z ∈ closedBall ys ρ) (hs : Spec.Solution S (Spec.atPoint v x w z)) : z = ys := by
  obtain ⟨hL, hε, hβ, hM⟩ := h.nonneg
  have hdist : ‖z - ys‖ ≤ ρ := by rwa [mem_closedBall, dist_eq_norm] at hz
  have h1 := h.inverse z hz (z - ys)
  have h2 := h.jacobian z hz (z - ys)
  have h3 := newton_remainder h.derivative h.change hz
  have e3 : S.res (Spec.atPoint v x w ys) = 0 := funext h.solution
  have e4 : S.res (Spec.atPoint v x w z) = 0 := funext hs
  simp only [e3, e4, sub_zero, zero_sub, norm_neg] at h3
  have h4 := norm_le_norm_add_norm_sub' ((S.jac (Spec.atPoint v x w z)).mulVec (fun j => w j * (z - ys) j)) (A z (z - ys))
  have h5 : ‖z - ys‖ ≤ β * (L / 2 * ρ + ε) * ‖z - ys‖ := by
    refine h1.trans ?_
    rw [mul_assoc]
    refine mul_le_mul_of_nonneg_left ?_ hβ
    have h6 : L / 2 * ‖z - ys‖ ^ 2 ≤ L / 2 * ρ * ‖z - ys‖ := by
      rw [sq, ← mul_assoc]
      exact mul_le_mul_of_nonneg_right (mul_le_mul_of_nonneg_left hdist (by linarith)) (norm_nonneg _)
    rw [add_mul]
    linarith
  by_contra hne
  have hpos : 0 < ‖z - ys‖ := norm_pos_iff.mpr (sub_ne_zero.mpr hne)
  nlinarith

theorem Spec.Interior.mono (hI : Spec.Interior S x v w ys ρ) (hw : ∀ j, 0 < w j) {ρ' : ℝ} (hρ : ρ' ≤ ρ) :
    Spec.Interior S x v w ys ρ' := by
  refine ⟨fun j b hj hk => ?_, fun j b f hj => ?_, fun j i p hj => ?_, fun y hy => hI.checks y (closedBall_subset_closedBall hρ hy)⟩
  · obtain ⟨h1, h2⟩ := hI.pressure j b hj hk
    exact ⟨h1, by linarith⟩
  · obtain ⟨h1, h2⟩ := hI.fluid j b f hj
    exact ⟨h1.trans (mul_le_mul_of_nonneg_left (by linarith) (hw j).le),
      (mul_le_mul_of_nonneg_left (by linarith) (hw j).le).trans h2⟩
  · obtain ⟨h1, h2⟩ := hI.comp j i p hj
    exact ⟨h1.trans (mul_le_mul_of_nonneg_left (by linarith) (hw j).le),
      (mul_le_mul_of_nonneg_left (by linarith) (hw j).le).trans h2⟩

/-- **C100 (existence of the distance).**  Around every solution with an invertible jacobian, at which no limit is active
and the jacobian of the program is the derivative of the equations and changes by at most `L` per distance, there is a
distance within which every calculation reports convergence in iteration `minIter` at the latest, and the error has been
halved in every iteration. -/
theorem C100_neighbourhood (hN : Spec.Numbered S x) (hsol : Spec.Solution S (Spec.atPoint v x w ys)) (hw : ∀ j, 0 < w j)
    (hρ : 0 < ρ) (hL : 0 ≤ L) (hd : ∀ y ∈ closedBall ys ρ, HasFDerivAt (fun y => S.res (Spec.atPoint v x w y)) (A y) y)
    (hch : ∀ y ∈ closedBall ys ρ, ∀ z ∈ closedBall ys ρ, ‖A y - A z‖ ≤ L * ‖y - z‖)
    (hex : ∀ y ∈ closedBall ys ρ, ∀ d : Fin n → ℝ, (S.jac (Spec.atPoint v x w y)).mulVec (fun j => w j * d j) = A y d)
    (hdet : (S.jac (Spec.atPoint v x w ys)).det ≠ 0) {C : ℝ} (hC : ∀ r, S.nrm r ≤ C * ‖r‖)
    (hI : Spec.Interior S x v w ys ρ) {thr : ℝ} (hthr : 0 < thr) :
    ∃ ρ' > 0, ∀ y0 ∈ closedBall ys ρ', ∀ minIter maxIter : ℕ, 2 ≤ minIter → minIter ≤ 42 → minIter ≤ maxIter →
      ∃ v' r, S.solve thr minIter maxIter (Spec.atPoint v x w y0) = .ok (v', r) ∧ r.converged = true ∧
        r.iters ≤ minIter ∧ (∀ j, |v'.get (x j) - w j * ys j| ≤ w j * ((1 / 2) ^ r.iters * ‖y0 - ys‖)) ∧
        (∀ o, o ∉ S.owners → v'.get o = v.get o) := by
  set J := S.jac (Spec.atPoint v x w ys) with hJ
  set T : (Fin n → ℝ) →L[ℝ] (Fin n → ℝ) :=
    (Matrix.toLin' (Matrix.diagonal (fun j => (w j)⁻¹) * J⁻¹)).toContinuousLinearMap with hT
  have hys : ys ∈ closedBall ys ρ := mem_closedBall_self hρ.le
  have hTd : ∀ d : Fin n → ℝ, T (A ys d) = d := by
    intro d
    rw [← hex ys hys d]
    show Matrix.toLin' _ _ = _
    rw [Matrix.toLin'_apply, Matrix.mulVec_mulVec, Matrix.mul_assoc, Matrix.nonsing_inv_mul _ hdet.isUnit, Matrix.mul_one]
    funext j
    rw [Matrix.mulVec_diagonal]
    have := (hw j).ne'
    field_simp
  set β0 := ‖T‖ + 1 with hβ0
  have hβpos : 0 < β0 := by positivity
  have hlow : ∀ d : Fin n → ℝ, ‖d‖ ≤ β0 * ‖A ys d‖ := by
    intro d
    have := T.le_opNorm (A ys d)
    rw [hTd] at this
    refine this.trans (mul_le_mul_of_nonneg_right (by rw [hβ0]; linarith) (norm_nonneg _))
  set a := ‖A ys‖ + L * ρ + L / 2 * ρ with ha
  have ha0 : 0 ≤ a := by positivity
  set ρ' := min ρ (min (1 / (2 * β0 * (L + 1))) (thr / (2 * (|C| * a + 1)))) with hρ'
  have hρ'pos : 0 < ρ' := by
    rw [hρ']
    refine lt_min hρ (lt_min (by positivity) (by positivity))
  have hle1 : ρ' ≤ ρ := min_le_left _ _
  have hle2 : ρ' ≤ 1 / (2 * β0 * (L + 1)) := (min_le_right _ _).trans (min_le_left _ _)
  have hle3 : ρ' ≤ thr / (2 * (|C| * a + 1)) := (min_le_right _ _).trans (min_le_right _ _)
  have hsmall : β0 * L * ρ' ≤ 1 / 2 := by
    rw [le_div_iff₀ (by positivity)] at hle2
    nlinarith [mul_pos hβpos hρ'pos]
  have hM : |C| * a * ρ' < thr := by
    have : 0 ≤ |C| * a := by positivity
    rw [le_div_iff₀ (by positivity)] at hle3
    nlinarith
  have hsub : closedBall ys ρ' ⊆ closedBall ys ρ := closedBall_subset_closedBall hle1
  have hreg : Spec.RegularSolution S x v w ys ρ' L 0 (2 * β0) (|C| * a) A := by
    refine ⟨hsol, hw, hρ'pos.le, fun y hy => hd y (hsub hy), fun y hy z hz => hch y (hsub hy) z (hsub hz), fun y hy d => ?_,
      fun y hy d => ?_, fun y hy => ?_, ⟨hL, le_rfl, by positivity, by positivity⟩⟩
    · rw [hex y (hsub hy), sub_self, norm_zero, zero_mul]
    · rw [hex y (hsub hy)]
      have h1 := hlow d
      have h2 : ‖A ys d‖ ≤ ‖A y d‖ + L * ρ' * ‖d‖ := by
        have h3 := norm_le_norm_add_norm_sub' (A ys d) (A y d)
        have h4 : ‖A ys d - A y d‖ ≤ ‖A ys - A y‖ * ‖d‖ := (A ys - A y).le_opNorm d
        have h5 := hch ys hys y (hsub hy)
        have h6 : ‖ys - y‖ ≤ ρ' := by rwa [mem_closedBall, dist_comm, dist_eq_norm] at hy
        have h7 : ‖A ys - A y‖ ≤ L * ρ' := h5.trans (mul_le_mul_of_nonneg_left h6 hL)
        have h8 := mul_le_mul_of_nonneg_right h7 (norm_nonneg d)
        linarith
      have h3 := mul_le_mul_of_nonneg_left h2 hβpos.le
      have h4 := mul_le_mul_of_nonneg_right hsmall (norm_nonneg d)
      nlinarith
    · have h1 := newton_remainder hd hch (hsub hy)
      have e3 : S.res (Spec.atPoint v x w ys) = 0 := funext hsol
      simp only [e3, sub_zero] at h1
      have hdist : ‖y - ys‖ ≤ ρ := by have := hsub hy; rwa [mem_closedBall, dist_eq_norm] at this
      have hn := norm_nonneg (y - ys)
      have h2 : ‖A y (y - ys)‖ ≤ (‖A ys‖ + L * ρ) * ‖y - ys‖ := by
        refine ((A y).le_opNorm _).trans (mul_le_mul_of_nonneg_right ?_ hn)
        have h3 := norm_le_norm_add_norm_sub' (A y) (A ys)
        have h4 := hch y (hsub hy) ys hys
        have h5 := mul_le_mul_of_nonneg_left hdist hL
        linarith
      have h3 := norm_le_norm_add_norm_sub' (S.res (Spec.atPoint v x w y)) (A y (y - ys))
      have h4 : L / 2 * ‖y - ys‖ ^ 2 ≤ L / 2 * ρ * ‖y - ys‖ := by
        rw [sq, ← mul_assoc]
        exact mul_le_mul_of_nonneg_right (mul_le_mul_of_nonneg_left hdist (by linarith)) hn
      have h5 : ‖S.res (Spec.atPoint v x w y)‖ ≤ a * ‖y - ys‖ := by
        rw [ha, add_mul]
        linarith
      calc S.nrm _ ≤ C * ‖S.res (Spec.atPoint v x w y)‖ := hC _
        _ ≤ |C| * ‖S.res (Spec.atPoint v x w y)‖ := mul_le_mul_of_nonneg_right (le_abs_self _) (norm_nonneg _)
        _ ≤ |C| * (a * ‖y - ys‖) := mul_le_mul_of_nonneg_left h5 (abs_nonneg _)
        _ = _ := by ring
  refine ⟨ρ', hρ'pos, fun y0 hy minIter maxIter h2 h42 hmm => ?_⟩
  have hdist : ‖y0 - ys‖ ≤ ρ' := by rwa [mem_closedBall, dist_eq_norm] at hy
  obtain ⟨v', r, r1, r2, r3, r4, r5⟩ := C100_converges hN hreg (hI.mono hw hle1) (q := 1 / 2)
    (by rw [add_zero]; linarith) (by norm_num) hy thr minIter maxIter (minIter - 1) (by omega) (by omega) (by omega) (by omega)
    (by
      refine lt_of_le_of_lt ?_ hM
      refine mul_le_mul_of_nonneg_left ?_ (by positivity)
      calc (1 / 2 : ℝ) ^ (minIter - 1 - 1) * ‖y0 - ys‖ ≤ 1 * ρ' :=
            mul_le_mul (pow_le_one₀ (by norm_num) (by norm_num)) hdist (norm_nonneg _) zero_le_one
        _ = ρ' := one_mul _)
  exact ⟨v', r, r1, r2, by omega, r4, r5⟩

/-! ### a concrete network: a turbine -/

/-- Two connections with a common mass flow (container 0); pressure and enthalpy in containers 1, 2 and 4, 5. -/
noncomputable def shaftConn (j : ℕ) : ChkConn ℝ where
  box := fun k => match k with
    | .m => 0
    | .p => 3 * j + 1
    | .h => 3 * j + 2
  fid := j
  good := true
  TdSet := false
  Td := 0
  state := none
  TSet := false

noncomputable def shaftEnv : ChkEnv ℝ where
  isVar := fun k i => (k == .m && i == 0) || (k == .h && i == 5)
  fluids _ := ["A"]
  fvar _ := []
  single _ _ := none
  mixRange _ _ := .ok (0, 1000000)
  range := fun _ => (-100, 100)

/-- A turbine with inlet enthalpy 300: the unknown mass flow `m` and outlet enthalpy `h` satisfy `m (300 - h) = 100`
(power) and `h = 200`. -/
noncomputable def shaftNet : NetSys ℝ 2 where
  owners := [.prop 0, .prop 5]
  col o := if o = .prop 0 then 0 else 1
  kind := netKind
  lo _ _ := 0
  hi _ _ := 1
  err := 1 / 1000000
  res v := ![v.prop 0 * (3 - v.prop 5 / 100) - 1, v.prop 5 / 100 - 2]
  jac v := !![3 - v.prop 5 / 100, -(v.prop 0 / 100); 0, 1 / 100]
  nrm r := |r 0| + |r 1|
  env := shaftEnv
  fuel := 9
  conns := [shaftConn 0, shaftConn 1]
  comps := [.turbine (shaftConn 0) (shaftConn 1)]

def shaftVars : Fin 2 → Owner := ![.prop 0, .prop 5]

/-- inlet: 10 Pa and 300 J/kg; outlet: 1 Pa -/
noncomputable def shaftVals : VVals ℝ where
  prop b := if b = 1 then 10 else if b = 2 then 300 else 1
  fluid _ _ := 1
  comp _ _ := 0

/-- sizes 1 kg/s and 100 J/kg -/
noncomputable def shaftSize : Fin 2 → ℝ := ![1, 100]

theorem shaft_numbered : Spec.Numbered shaftNet shaftVars := by
  refine ⟨by simp [shaftNet], fun j => ?_, fun o ho => ?_, fun j => ?_⟩
  · fin_cases j <;> simp [shaftNet, shaftVars]
  · simp only [shaftNet, List.mem_cons, List.not_mem_nil, or_false] at ho
    rcases ho with rfl | rfl
    · exact ⟨0, rfl⟩
    · exact ⟨1, rfl⟩
  · fin_cases j <;> simp [shaftNet, shaftVars]

theorem shaft_prop (y : Fin 2 → ℝ) : (Spec.atPoint shaftVals shaftVars shaftSize y).prop 0 = y 0 ∧
    (Spec.atPoint shaftVals shaftVars shaftSize y).prop 5 = 100 * y 1 ∧
    ∀ b, b ≠ 0 → b ≠ 5 → (Spec.atPoint shaftVals shaftVars shaftSize y).prop b = shaftVals.prop b := by
  have hx := numbered_injective shaft_numbered
  refine ⟨?_, ?_, fun b h0 h5 => ?_⟩
  · have := values_get shaftVals shaftVars hx (fun j => shaftSize j * y j) 0
    exact this.trans (by simp [shaftSize])
  · have := values_get shaftVals shaftVars hx (fun j => shaftSize j * y j) 1
    exact this.trans (by simp [shaftSize])
  · exact values_get_other shaftVals shaftVars (fun j => shaftSize j * y j) (.prop b) (fun j => by
      fin_cases j <;> simp [shaftVars, h0, h5])

/-- the derivative of the equations -/
noncomputable def shaftA (y : Fin 2 → ℝ) : (Fin 2 → ℝ) →L[ℝ] (Fin 2 → ℝ) :=
  ContinuousLinearMap.pi ![(3 - y 1) • ContinuousLinearMap.proj (R := ℝ) (φ := fun _ : Fin 2 => ℝ) 0 -
      y 0 • ContinuousLinearMap.proj (R := ℝ) (φ := fun _ : Fin 2 => ℝ) 1,
    ContinuousLinearMap.proj (R := ℝ) (φ := fun _ : Fin 2 => ℝ) 1]

theorem shaftA_apply (y d : Fin 2 → ℝ) : shaftA y d = ![(3 - y 1) * d 0 - y 0 * d 1, d 1] := by
  funext i
  fin_cases i <;> simp [shaftA]

theorem shaft_res (y : Fin 2 → ℝ) : shaftNet.res (Spec.atPoint shaftVals shaftVars shaftSize y) =
    ![y 0 * (3 - y 1) - 1, y 1 - 2] := by
  obtain ⟨h0, h5, _⟩ := shaft_prop y
  simp only [shaftNet, h0, h5]
  congr 1
  · ring
  · congr 1; ring

theorem shaft_jac (y d : Fin 2 → ℝ) : (shaftNet.jac (Spec.atPoint shaftVals shaftVars shaftSize y)).mulVec
    (fun j => shaftSize j * d j) = ![(3 - y 1) * d 0 - y 0 * d 1, d 1] := by
  obtain ⟨h0, h5, _⟩ := shaft_prop y
  funext i
  fin_cases i
  · simp only [shaftNet, Matrix.mulVec, dotProduct, Fin.sum_univ_two, h0, h5]
    simp [shaftSize]
    ring
  · simp [shaftNet, Matrix.mulVec, dotProduct, Fin.sum_univ_two, shaftSize]

theorem shaft_ball {y : Fin 2 → ℝ} (hy : y ∈ closedBall (![1, 2] : Fin 2 → ℝ) (1 / 10)) :
    |y 0 - 1| ≤ 1 / 10 ∧ |y 1 - 2| ≤ 1 / 10 := by
  rw [mem_closedBall, dist_eq_norm] at hy
  have h0 := (norm_le_pi_norm _ 0).trans hy
  have h1 := (norm_le_pi_norm _ 1).trans hy
  simpa [Real.norm_eq_abs] using And.intro h0 h1

theorem shaft_regular : Spec.RegularSolution shaftNet shaftVars shaftVals shaftSize ![1, 2] (1 / 10) 2 0 (12 / 5) 4 shaftA := by
  have bound : ∀ (d : Fin 2 → ℝ), |d 0| ≤ ‖d‖ ∧ |d 1| ≤ ‖d‖ := fun d =>
    ⟨by simpa using norm_le_pi_norm d 0, by simpa using norm_le_pi_norm d 1⟩
  refine ⟨fun i => ?_, fun j => ?_, by norm_num, fun y hy => ?_, fun y hy z hz => ?_, fun y hy d => ?_, fun y hy d => ?_,
    fun y hy => ?_, by norm_num⟩
  · rw [shaft_res]
    fin_cases i <;> norm_num
  · fin_cases j <;> norm_num [shaftSize]
  · have e : (fun y => shaftNet.res (Spec.atPoint shaftVals shaftVars shaftSize y)) =
        fun y => ![y 0 * (3 - y 1) - 1, y 1 - 2] := funext shaft_res
    rw [e, hasFDerivAt_pi']
    have p0 : HasFDerivAt (fun y : Fin 2 → ℝ => y 0) (ContinuousLinearMap.proj (R := ℝ) (φ := fun _ : Fin 2 => ℝ) 0) y :=
      (ContinuousLinearMap.proj (R := ℝ) (φ := fun _ : Fin 2 => ℝ) 0).hasFDerivAt
    have p1 : HasFDerivAt (fun y : Fin 2 → ℝ => y 1) (ContinuousLinearMap.proj (R := ℝ) (φ := fun _ : Fin 2 => ℝ) 1) y :=
      (ContinuousLinearMap.proj (R := ℝ) (φ := fun _ : Fin 2 => ℝ) 1).hasFDerivAt
    intro i
    fin_cases i
    · refine ((p0.mul (p1.const_sub 3)).sub_const 1).congr_fderiv ?_
      ext d
      simp [shaftA]
      ring
    · refine (p1.sub_const 2).congr_fderiv ?_
      ext d
      simp [shaftA]
  · refine ContinuousLinearMap.opNorm_le_bound _ (by positivity) fun d => ?_
    rw [ContinuousLinearMap.sub_apply, shaftA_apply, shaftA_apply, pi_norm_le_iff_of_nonneg (by positivity)]
    obtain ⟨d0, d1⟩ := bound d
    obtain ⟨n0, n1⟩ := bound (y - z)
    simp only [Pi.sub_apply] at n0 n1
    intro i
    fin_cases i
    · have e : (![(3 - y 1) * d 0 - y 0 * d 1, d 1] - ![(3 - z 1) * d 0 - z 0 * d 1, d 1] : Fin 2 → ℝ) 0 =
          -((y 1 - z 1) * d 0) - (y 0 - z 0) * d 1 := by simp; ring
      show ‖(![(3 - y 1) * d 0 - y 0 * d 1, d 1] - ![(3 - z 1) * d 0 - z 0 * d 1, d 1] : Fin 2 → ℝ) 0‖ ≤ _
      rw [e]
      refine (norm_sub_le _ _).trans ?_
      rw [norm_neg, Real.norm_eq_abs, Real.norm_eq_abs, abs_mul, abs_mul]
      have a1 := mul_le_mul n1 d0 (abs_nonneg _) (norm_nonneg _)
      have a2 := mul_le_mul n0 d1 (abs_nonneg _) (norm_nonneg _)
      linarith
    · simp
      positivity
  · rw [shaft_jac, shaftA_apply, sub_self]
    simp
  · rw [shaft_jac]
    obtain ⟨b0, b1⟩ := shaft_ball hy
    rw [abs_le] at b0 b1
    obtain ⟨r0, r1⟩ := bound ![(3 - y 1) * d 0 - y 0 * d 1, d 1]
    generalize ‖(![(3 - y 1) * d 0 - y 0 * d 1, d 1] : Fin 2 → ℝ)‖ = r at r0 r1 ⊢
    simp only [Matrix.cons_val_zero, Matrix.cons_val_one] at r0 r1
    have hr : 0 ≤ r := (abs_nonneg _).trans r1
    have k1 : |d 0| * (9 / 10) ≤ |(3 - y 1) * d 0| := by
      rw [abs_mul, abs_of_pos (by linarith [b1.2] : (0:ℝ) < 3 - y 1), mul_comm]
      exact mul_le_mul_of_nonneg_right (by linarith [b1.2]) (abs_nonneg _)
    have k2 : |y 0 * d 1| ≤ 11 / 10 * r := by
      rw [abs_mul, abs_of_pos (by linarith [b0.1] : (0:ℝ) < y 0)]
      exact mul_le_mul (by linarith [b0.2]) r1 (abs_nonneg _) (by norm_num)
    have k3 : |(3 - y 1) * d 0| ≤ r + 11 / 10 * r := by
      have := abs_add_le ((3 - y 1) * d 0 - y 0 * d 1) (y 0 * d 1)
      rw [sub_add_cancel] at this
      linarith
    rw [pi_norm_le_iff_of_nonneg (by positivity)]
    intro i
    rw [Real.norm_eq_abs]
    fin_cases i
    · show |d 0| ≤ _
      linarith
    · show |d 1| ≤ _
      linarith
  · rw [shaft_res]
    obtain ⟨b0, b1⟩ := shaft_ball hy
    obtain ⟨r0, r1⟩ := bound (y - ![1, 2])
    simp only [Pi.sub_apply, Matrix.cons_val_zero, Matrix.cons_val_one] at r0 r1
    show |y 0 * (3 - y 1) - 1| + |y 1 - 2| ≤ _
    have e : y 0 * (3 - y 1) - 1 = (y 0 - 1) * (3 - y 1) - (y 1 - 2) := by ring
    rw [e]
    have k := abs_sub ((y 0 - 1) * (3 - y 1)) (y 1 - 2)
    rw [abs_le] at b1
    have k1 : |(y 0 - 1) * (3 - y 1)| ≤ ‖y - ![1, 2]‖ * (11 / 10) := by
      rw [abs_mul, abs_of_pos (by linarith [b1.2] : (0:ℝ) < 3 - y 1)]
      exact mul_le_mul r0 (by linarith [b1.1]) (by linarith [b1.2]) (norm_nonneg _)
    have := norm_nonneg (y - ![1, 2])
    linarith

theorem shaft_interior : Spec.Interior shaftNet shaftVars shaftVals shaftSize ![1, 2] (1 / 10) := by
  refine ⟨fun j b h hk => ?_, fun j b f h => ?_, fun j i p h => ?_, fun y hy => ?_⟩
  · fin_cases j <;> simp only [shaftVars, Owner.prop.injEq, Matrix.cons_val_zero, Matrix.cons_val_one, Fin.mk_one,
      Fin.zero_eta] at h <;> subst h <;> exact absurd hk (by decide)
  · fin_cases j <;> simp [shaftVars] at h
  · fin_cases j <;> simp [shaftVars] at h
  · obtain ⟨b0, b1⟩ := shaft_ball hy
    obtain ⟨h0, h5, hb⟩ := shaft_prop y
    rw [abs_le] at b0 b1
    refine ⟨fun c hc => ?_, fun c hc => ?_, fun c _ fl hfl => (by cases hfl), fun cp hcp => ?_⟩
    · simp only [shaftNet, List.mem_cons, List.not_mem_nil, or_false] at hc
      rcases hc with rfl | rfl <;> rfl
    · have hm : -100 ≤ (Spec.atPoint shaftVals shaftVars shaftSize y).prop 0 ∧
          (Spec.atPoint shaftVals shaftVars shaftSize y).prop 0 ≤ 100 := by
        rw [h0]; constructor <;> linarith [b0.1, b0.2]
      simp only [shaftNet, List.mem_cons, List.not_mem_nil, or_false] at hc
      rcases hc with rfl | rfl <;> exact ⟨hm, Or.inl rfl, fun _ h => (by cases h), fun _ h => (by cases h)⟩
    · simp only [shaftNet, List.mem_cons, List.not_mem_nil, or_false] at hcp
      subst hcp
      refine ⟨rfl, ?_, ?_⟩
      · show (Spec.atPoint shaftVals shaftVars shaftSize y).prop 4 < (Spec.atPoint shaftVals shaftVars shaftSize y).prop 1
        rw [hb 4 (by decide) (by decide), hb 1 (by decide) (by decide)]
        norm_num [shaftVals]
      · show (Spec.atPoint shaftVals shaftVars shaftSize y).prop 5 < (Spec.atPoint shaftVals shaftVars shaftSize y).prop 2
        rw [h5, hb 2 (by decide) (by decide)]
        norm_num [shaftVals]
        linarith [b1.2]

/-- The hypotheses of `C100_step` and `C100_converges` are met: from any mass flow between 0.9 and 1.1 kg/s and any outlet
enthalpy between 190 and 210 J/kg the calculation of the turbine converges within seven iterations. -/
example (y0 : Fin 2 → ℝ) (hy : y0 ∈ closedBall (![1, 2] : Fin 2 → ℝ) (1 / 10)) :
    ∃ v' r, shaftNet.solve (1 / 1000) 4 50 (Spec.atPoint shaftVals shaftVars shaftSize y0) = .ok (v', r) ∧
      r.converged = true ∧ r.iters ≤ 7 := by
  obtain ⟨v', r, h1, h2, h3, _⟩ := C100_converges shaft_numbered shaft_regular shaft_interior (q := 6 / 25) (by norm_num)
    (by norm_num) hy (1 / 1000) 4 50 6 (by norm_num) (by norm_num) (by norm_num) (by norm_num) (by
      rw [mem_closedBall, dist_eq_norm] at hy
      have := mul_le_mul_of_nonneg_left hy (show (0:ℝ) ≤ 4 * (6 / 25) ^ (6 - 1) by norm_num)
      have h2 : (4:ℝ) * (6 / 25) ^ (6 - 1) * (1 / 10) < 1 / 1000 := by norm_num
      linarith)
  exact ⟨v', r, h1, h2, h3⟩

/-- The hypotheses of `C100_neighbourhood` are met. -/
example : ∃ ρ' > 0, ∀ y0 ∈ closedBall (![1, 2] : Fin 2 → ℝ) ρ', ∃ v' r,
    shaftNet.solve (1 / 1000) (4 : ℕ) 50 (Spec.atPoint shaftVals shaftVars shaftSize y0) = .ok (v', r) ∧
      r.converged = true := by
  obtain ⟨ρ', h1, h2⟩ := C100_neighbourhood shaft_numbered shaft_regular.solution shaft_regular.size (ρ := 1 / 10)
    (by norm_num) (by norm_num : (0:ℝ) ≤ 2) shaft_regular.derivative shaft_regular.change
    (fun y _ d => by rw [shaft_jac, shaftA_apply]) (regular_det shaft_regular (mem_closedBall_self (by norm_num))) (C := 2)
    (fun r => by
      have h0 := norm_le_pi_norm r 0
      have h1 := norm_le_pi_norm r 1
      rw [Real.norm_eq_abs] at h0 h1
      show |r 0| + |r 1| ≤ _
      linarith) shaft_interior (thr := 1 / 1000) (by norm_num)
  refine ⟨ρ', h1, fun y0 hy => ?_⟩
  obtain ⟨v', r, r1, r2, _⟩ := h2 y0 hy 4 50 (by norm_num) (by norm_num) (by norm_num)
  exact ⟨v', r, r1, r2⟩

/-! ### far from the solution -/

/-- An unknown mass flow with an equation of third order, which has the solution 1 kg/s. -/
def cycleNet : NetSys ℚ 1 := scalarNet (.prop 0) (fun m => 7 * (m - 3) ^ 3 + 2 * (m - 3) ^ 2 - 16 * (m - 3) + 16)
  (fun m => 21 * (m - 3) ^ 2 + 4 * (m - 3) - 16) netKind
  (mixEnv (fun k i => k == .m && i == 0) (fun _ => ["A"]) (fun _ => [])) [netConn 0] []

def cycleVals (m : ℚ) : VVals ℚ :=
  { netVals (fun _ _ => 1) with prop := fun b => if b = 0 then m else (netVals fun _ _ => 1).prop b }

theorem cycle_checks (m : ℚ) (h : -100 ≤ m ∧ m ≤ 100) : Spec.NothingToCorrect cycleNet (cycleVals m) := by
  refine ⟨fun c hc => ?_, fun c hc => ?_, fun c _ fl hfl => (by cases hfl), fun cp hcp => (by cases hcp)⟩
  · simp only [cycleNet, scalarNet, List.mem_singleton] at hc
    subst hc; rfl
  · simp only [cycleNet, scalarNet, List.mem_singleton] at hc
    subst hc
    exact feasible_mix _ _ _ _ _ h (Or.inl rfl)

theorem cycle_step (iter : ℕ) (m m' : ℚ) (h' : -100 ≤ m' ∧ m' ≤ 100)
    (hd : 21 * (m - 3) ^ 2 + 4 * (m - 3) - 16 ≠ 0)
    (he : (21 * (m - 3) ^ 2 + 4 * (m - 3) - 16) * (m' - m) = -(7 * (m - 3) ^ 3 + 2 * (m - 3) ^ 2 - 16 * (m - 3) + 16)) :
    cycleNet.step iter (cycleVals m) = (cycleVals m', false, none) := by
  have hi : cycleNet.increment (cycleVals m) = some (fun _ => m' - m) := by
    refine increment_of_mulVec _ _ _ ?_ ?_
    · unfold cycleNet
      rw [scalarNet_det]
      exact hd
    · funext i
      simp only [Matrix.mulVec, dotProduct, Finset.univ_unique, Finset.sum_singleton]
      exact he
  have hu : updateVariables cycleNet.err cycleNet.kind cycleNet.lo cycleNet.hi (incAt fun _ : Fin 1 => m' - m)
      cycleNet.col cycleNet.owners (cycleVals m) = cycleVals m' := by
    apply VVals.ext_get
    intro o
    rw [updateVariables_get _ _ _ _ _ _ _ (by simp [cycleNet, scalarNet])]
    by_cases ho : o = .prop 0
    · subst ho
      rw [if_pos (by simp [cycleNet, scalarNet])]
      simp [cycleNet, scalarNet, netKind, incAt, VVals.get, cycleVals, newValue]
    · rw [if_neg (by simpa [cycleNet, scalarNet] using ho)]
      cases o with
      | prop b =>
        have hb : b ≠ 0 := fun h => ho (by rw [h])
        simp [VVals.get, cycleVals, hb]
      | fluid b f => rfl
      | comp i p => rfl
  unfold NetSys.step
  rw [hi]
  dsimp only
  rw [hu, checkBounds_idle cycleNet iter _ (cycle_checks m' h')]
  rfl

theorem cycle_state (k : ℕ) : cycleNet.state (cycleVals 3) k = (cycleVals (if k % 2 = 0 then 3 else 4), none) := by
  induction k with
  | zero => rfl
  | succ k ih =>
    unfold NetSys.state
    rw [ih]
    dsimp only
    rcases Nat.mod_two_eq_zero_or_one k with h | h
    · have h2 : (k + 1) % 2 ≠ 0 := by omega
      rw [if_pos h, if_neg h2, cycle_step k 3 4 (by norm_num) (by norm_num) (by norm_num)]
    · have h2 : (k + 1) % 2 = 0 := by omega
      have h3 : k % 2 ≠ 0 := by omega
      rw [if_neg h3, if_pos h2, cycle_step k 4 3 (by norm_num) (by norm_num) (by norm_num)]

/-- C100 without closeness is false: a mass flow is 1 kg/s according to a regular equation, nothing is limited or corrected,
but from 3 kg/s the iteration alternates between 4 kg/s and 3 kg/s; whatever the numbers of iterations are, the calculation
ends without convergence. -/
theorem C100_far_false : ∃ (S : NetSys ℚ 1) (vs v0 : VVals ℚ), Spec.Solution S vs ∧ (S.jac vs).det ≠ 0 ∧
    vs.prop 0 = 1 ∧ v0.prop 0 = 3 ∧ (∀ o, o ∉ S.owners → v0.get o = vs.get o) ∧
    (∀ k, Spec.NothingToCorrect S (S.state v0 k).1 ∧ (S.jac (S.state v0 k).1).det ≠ 0) ∧
    ∀ thr, thr ≤ 9 → ∀ minIter maxIter, ∃ v' r, S.solve thr minIter maxIter v0 = .ok (v', r) ∧ r.converged = false ∧
      (v'.prop 0 = 3 ∨ v'.prop 0 = 4) := by
  refine ⟨cycleNet, cycleVals 1, cycleVals 3, fun i => ?_, ?_, rfl, rfl, fun o ho => ?_, fun k => ?_,
    fun thr hthr minIter maxIter => ?_⟩
  · show (7 * ((1:ℚ) - 3) ^ 3 + 2 * (1 - 3) ^ 2 - 16 * (1 - 3) + 16) = 0
    norm_num
  · unfold cycleNet
    rw [scalarNet_det]
    show (21 * ((1:ℚ) - 3) ^ 2 + 4 * (1 - 3) - 16) ≠ 0
    norm_num
  · have ho : o ≠ .prop 0 := by simpa [cycleNet, scalarNet] using ho
    cases o with
    | prop b =>
      have hb : b ≠ 0 := fun h => ho (by rw [h])
      simp [VVals.get, cycleVals, hb]
    | fluid b f => rfl
    | comp i p => rfl
  · rw [cycle_state]
    refine ⟨cycle_checks _ (by split_ifs <;> norm_num), ?_⟩
    unfold cycleNet
    rw [scalarNet_det]
    show (21 * ((if k % 2 = 0 then (3:ℚ) else 4) - 3) ^ 2 + 4 * ((if k % 2 = 0 then (3:ℚ) else 4) - 3) - 16) ≠ 0
    split_ifs <;> norm_num
  · refine ⟨cycleVals (if (solveLoop (cycleNet.out (cycleVals 3)) thr minIter maxIter 0).iters % 2 = 0 then 3 else 4),
      solveLoop (cycleNet.out (cycleVals 3)) thr minIter maxIter 0, ?_, ?_, ?_⟩
    · unfold NetSys.solve
      simp only [cycle_state]
    · cases hc : (solveLoop (cycleNet.out (cycleVals 3)) thr minIter maxIter 0).converged with
      | false => rfl
      | true =>
        obtain ⟨i, _, hi⟩ := C23_sound _ _ _ _ hc
        obtain ⟨r, hr, hlt⟩ := hi.last
        rw [out_eq, cycle_state] at hr
        simp only [Option.some.injEq] at hr
        exfalso
        have : r = |7 * ((if i % 2 = 0 then (3:ℚ) else 4) - 3) ^ 3 + 2 * ((if i % 2 = 0 then (3:ℚ) else 4) - 3) ^ 2 -
            16 * ((if i % 2 = 0 then (3:ℚ) else 4) - 3) + 16| := hr.symm
        split_ifs at this <;> norm_num at this <;> linarith
    · show (if _ then (3:ℚ) else 4) = 3 ∨ (if _ then (3:ℚ) else 4) = 4
      split_ifs <;> simp

end Tespy
