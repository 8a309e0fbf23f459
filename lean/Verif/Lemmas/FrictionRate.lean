import Verif.Lemmas.Friction
import Mathlib.Analysis.Complex.ExponentialBounds
import Mathlib.Tactic.IntervalCases
import Mathlib.Tactic.Linarith

/-!
Lemmas for C80: how fast the iterations for the friction factor approach the solution.
-/
namespace Tespy
open Real

/-! ### An invariant rule for the scalar Newton method with target zero and ten iterations -/

/-- Relaxation in pass `i`. -/
noncomputable def relOf (i : ℕ) : ℝ := if i < 5 then 1 else 3 / 4

/-- Limit of iterations in pass `i`. -/
def limOf (i : ℕ) : ℤ := if i < 5 then 10 else 12

theorem relOf_pos (i : ℕ) : 0 < relOf i := by unfold relOf; split <;> norm_num

theorem relOf_le (i : ℕ) : relOf i ≤ 1 := by unfold relOf; split <;> norm_num

theorem newtonLoop_invariant (a : NewtonArgs ℝ) (g D : ℝ → ℝ) (I : ℕ → ℝ → Prop) (ht : a.target = 0)
    (hf : ∀ i x, i ≤ 12 → I i x → a.f x = .ok (g x))
    (hd : ∀ i x, i ≤ 12 → I i x → a.df x = .ok (D x) ∧ D x ≠ 0)
    (step : ∀ i x, i ≤ 12 → I i x → I (i + 1) (clamp a.valmin a.valmax (x + (0 - g x) / D x * relOf i))) :
    ∀ (n i : ℕ) (x : ℝ), i ≤ 12 → I i x →
      newtonLoop a n x i (limOf i) (relOf i) = none ∨
      ∃ out j, newtonLoop a n x i (limOf i) (relOf i) = some (.ok out) ∧ i ≤ j ∧ j ≤ 12 ∧ I j out.xLast ∧
        I (j + 1) out.x ∧ out.residual = -g out.xLast ∧ (out.limit = true ↔ j = 12) ∧
        (out.limit = false → |g out.xLast| < a.tolAbs) := by
  intro n
  induction n with
  | zero => intros; left; rfl
  | succ n ih =>
    intro i x hi hI
    obtain ⟨hd1, hd2⟩ := hd i x hi hI
    have hs := step i x hi hI
    have e1 : nextRelax ((i : ℤ) + 1) (relOf i) = relOf (i + 1) := by
      unfold nextRelax relOf
      by_cases h5 : (i : ℤ) + 1 = 5
      · have : i = 4 := by omega
        subst this; norm_num
      · rw [if_neg h5]
        have : (i < 5) ↔ (i + 1 < 5) := by omega
        simp only [this]
    have e2 : nextMaxIter ((i : ℤ) + 1) (limOf i) = limOf (i + 1) := by
      unfold nextMaxIter limOf
      by_cases h5 : (i : ℤ) + 1 = 5
      · have : i = 4 := by omega
        subst this; norm_num
      · rw [if_neg h5]
        have : (i < 5) ↔ (i + 1 < 5) := by omega
        simp only [this]
    unfold newtonLoop
    simp only [hf i x hi hI, hd1, ht, if_neg hd2, e1, e2]
    by_cases hlim : (i : ℤ) + 1 > limOf (i + 1)
    · have h12 : i = 12 := by
        unfold limOf at hlim; split at hlim <;> omega
      rw [if_pos hlim]
      exact Or.inr ⟨_, i, rfl, le_rfl, hi, hI, hs, by simp, by simp [h12], by simp⟩
    · have h12 : i < 12 := by
        unfold limOf at hlim; split at hlim <;> omega
      rw [if_neg hlim]
      by_cases hc : a.continue (0 - g x) = true
      · rw [if_pos hc]
        rcases ih (i + 1) _ (by omega) hs with h | ⟨out, j, h, hj, r⟩
        · left; exact_mod_cast h
        · exact Or.inr ⟨out, j, by exact_mod_cast h, by omega, r⟩
      · rw [if_neg hc]
        refine Or.inr ⟨_, i, rfl, le_rfl, hi, hI, hs, by simp, ?_, ?_⟩
        · simp; omega
        · intro _
          simp only [NewtonArgs.continue, ht, or_true, if_true, decide_eq_true_eq, not_le] at hc
          simpa using hc

/-! ### The function of Colebrook in terms of the root of its argument -/

theorem cbSlope_sq {a b p : ℝ} (ha : 0 < a) (hb : 0 ≤ b) (hp : 0 < p) :
    cbSlope a b (p ^ 2) = (1 + 2 / log 10 * (a * p / (a + b * p))) / (2 * p ^ 3) := by
  have hab : 0 < a + b * p := by positivity
  have := log_ten_pos
  unfold cbSlope
  rw [Real.sqrt_sq hp.le]
  field_simp
  ring

/-- The function is concave in the inverse of the root. -/
theorem cbFun_conc {a b p q : ℝ} (ha : 0 < a) (hb : 0 ≤ b) (hp : 0 < p) (hq : 0 < q) :
    cbFun a b (p ^ 2) ≤ cbFun a b (q ^ 2) + (1 + 2 / log 10 * (a * q / (a + b * q))) * (1 / p - 1 / q) := by
  have hL := log_ten_pos
  have hA := cbArg_pos ha hb (by positivity : 0 < p ^ 2)
  have hB := cbArg_pos ha hb (by positivity : 0 < q ^ 2)
  have hl := Real.log_le_sub_one_of_pos (div_pos hA hB)
  rw [Real.log_div hA.ne' hB.ne'] at hl
  have hab : 0 < a + b * q := by positivity
  have e : cbArg a b (p ^ 2) / cbArg a b (q ^ 2) - 1 = a * q / (a + b * q) * (1 / p - 1 / q) := by
    unfold cbArg
    rw [Real.sqrt_sq hp.le, Real.sqrt_sq hq.le]
    have : a / q + b = (a + b * q) / q := by field_simp
    rw [this]
    field_simp
    ring
  rw [e] at hl
  unfold cbFun Real.logb
  rw [Real.sqrt_sq hp.le, Real.sqrt_sq hq.le]
  have := mul_le_mul_of_nonneg_left hl (by positivity : 0 ≤ 2 / log 10)
  have e2 : 2 / log 10 * (log (cbArg a b (p ^ 2)) - log (cbArg a b (q ^ 2)))
      = 2 * (log (cbArg a b (p ^ 2)) / log 10) - 2 * (log (cbArg a b (q ^ 2)) / log 10) := by ring
  rw [e2] at this
  linarith

/-- The step of Newton's method is at least that of the function `1/√x`. -/
theorem cb_lower {a b p q : ℝ} (ha : 0 < a) (hb : 0 ≤ b) (hp : 0 < p) (hq : 0 < q)
    (h0 : cbFun a b (q ^ 2) = 0) :
    cbSlope a b (p ^ 2) * (2 * p ^ 2 * (1 - p / q)) ≤ cbFun a b (p ^ 2) := by
  have := cbFun_conc ha hb hq hp
  rw [h0] at this
  rw [cbSlope_sq ha hb hp]
  have e : (1 + 2 / log 10 * (a * p / (a + b * p))) / (2 * p ^ 3) * (2 * p ^ 2 * (1 - p / q))
      = -((1 + 2 / log 10 * (a * p / (a + b * p))) * (1 / q - 1 / p)) := by
    generalize 1 + 2 / log 10 * (a * p / (a + b * p)) = k
    field_simp
    ring
  rw [e]
  linarith

theorem log_ten_ge : (23 / 10 : ℝ) ≤ log 10 := by
  have h2 := Real.log_two_gt_d9
  have e : log (10 : ℝ) = 3 * log 2 + log (10 / 8) := by
    rw [← Real.log_rpow (by norm_num), ← Real.log_mul (by positivity) (by norm_num)]; norm_num
  have h3 := log_ge_two_mul (z := (10 / 8 : ℝ)) (by norm_num)
  norm_num at h3 h2 ⊢
  rw [e]
  norm_num
  linarith

/-- The step of Newton's method exceeds that of the function `1/√x` by a small factor at most. -/
theorem cb_upper {a b p q : ℝ} (ha : 0 < a) (hb : 0 ≤ b) (hp : 0 < p) (hpq : p ≤ q)
    (h0 : cbFun a b (q ^ 2) = 0) :
    cbFun a b (p ^ 2) ≤ cbSlope a b (p ^ 2) * (2 * p ^ 2 * (1 - p / q) * (1 + 87 / 100 * q * (1 - p / q))) := by
  have hq : 0 < q := hp.trans_le hpq
  have := cbFun_conc ha hb hp hq
  rw [h0, zero_add] at this
  refine this.trans ?_
  have hL := log_ten_ge
  have hL0 := log_ten_pos
  have hap : 0 < a + b * p := by positivity
  have haq : 0 < a + b * q := by positivity
  rw [cbSlope_sq ha hb hp]
  set κ := 2 / log 10 * (a * q / (a + b * q)) with hκ
  set w := p / q with hw
  have hw0 : 0 < w := by positivity
  have hw1 : w ≤ 1 := by rw [hw, div_le_one hq]; exact hpq
  have hκ0 : 0 ≤ κ := by positivity
  have hκ1 : κ ≤ 87 / 100 * q := by
    rw [hκ]
    have h1 : 2 / log 10 ≤ 87 / 100 := by rw [div_le_iff₀ hL0]; linarith
    have h2 : a * q / (a + b * q) ≤ q := by
      rw [div_le_iff₀ haq]; have : 0 ≤ b * q * q := by positivity
      nlinarith
    exact mul_le_mul h1 h2 (by positivity) (by norm_num)
  have hκy : κ * w ≤ 2 / log 10 * (a * p / (a + b * p)) := by
    rw [hκ, hw, mul_assoc]
    apply mul_le_mul_of_nonneg_left _ (by positivity)
    have e : a * q / (a + b * q) * (p / q) = a * p / (a + b * q) := by field_simp
    rw [e]
    apply div_le_div_of_nonneg_left (by positivity) hap
    have : b * p ≤ b * q := mul_le_mul_of_nonneg_left hpq hb
    linarith
  have e : (1 + κ) * (1 / p - 1 / q) = (1 + κ) * (1 / p * (1 - w)) := by
    rw [hw]; field_simp
  have e' : (1 + 2 / log 10 * (a * p / (a + b * p))) / (2 * p ^ 3) * (2 * p ^ 2 * (1 - w) * (1 + 87 / 100 * q * (1 - w)))
      = (1 + 2 / log 10 * (a * p / (a + b * p))) * (1 + 87 / 100 * q * (1 - w)) * (1 / p * (1 - w)) := by
    generalize 1 + 2 / log 10 * (a * p / (a + b * p)) = k
    field_simp
  rw [e, e']
  have hw2 : 0 ≤ 1 - w := by linarith
  apply mul_le_mul_of_nonneg_right _ (by positivity)
  have h3 : (1 + κ * w) * (1 + κ * (1 - w))
      ≤ (1 + 2 / log 10 * (a * p / (a + b * p))) * (1 + 87 / 100 * q * (1 - w)) := by
    apply mul_le_mul
    · linarith
    · have := mul_le_mul_of_nonneg_right hκ1 hw2
      linarith
    · positivity
    · positivity
  have : 0 ≤ κ * κ * w * (1 - w) := by positivity
  nlinarith

/-- The central difference exceeds the slope by a third at most. -/
theorem cb_difference_upper {a b p δ : ℝ} (ha : 0 < a) (hb : 0 ≤ b) (hp : 0 < p) (hδ : 0 < δ)
    (hx : 2 * δ ≤ p ^ 2) :
    (cbFun a b (p ^ 2 - δ) - cbFun a b (p ^ 2 + δ)) / (2 * δ) ≤ 4 / 3 * cbSlope a b (p ^ 2) := by
  have hL0 := log_ten_pos
  obtain ⟨l, hl, hlx⟩ : ∃ l, 0 < l ∧ p ^ 2 - δ = l ^ 2 :=
    ⟨√(p ^ 2 - δ), Real.sqrt_pos.2 (by linarith), (Real.sq_sqrt (by linarith)).symm⟩
  obtain ⟨u, hu, hux⟩ : ∃ u, 0 < u ∧ p ^ 2 + δ = u ^ 2 :=
    ⟨√(p ^ 2 + δ), Real.sqrt_pos.2 (by positivity), (Real.sq_sqrt (by positivity)).symm⟩
  rw [hlx, hux]
  have hpu : p ≤ u := by
    by_contra hc
    push Not at hc
    nlinarith
  have hap : 0 < a + b * p := by positivity
  have hau : 0 < a + b * u := by positivity
  have h1 := cbFun_conc ha hb hl hp
  have h2 := cbFun_conc ha hb hp hu
  set k := 1 + 2 / log 10 * (a * p / (a + b * p)) with hk
  have hk1 : 1 ≤ k := by
    have : 0 ≤ 2 / log 10 * (a * p / (a + b * p)) := by positivity
    linarith
  have h3 : 1 + 2 / log 10 * (a * u / (a + b * u)) ≤ k * (u / p) := by
    have hup : 1 ≤ u / p := by rw [le_div_iff₀ hp]; linarith
    have e : a * p / (a + b * p) * (u / p) = a * u / (a + b * p) := by field_simp
    have : a * u / (a + b * u) ≤ a * p / (a + b * p) * (u / p) := by
      rw [e]
      apply div_le_div_of_nonneg_left (by positivity) hap
      have : b * p ≤ b * u := mul_le_mul_of_nonneg_left hpu hb
      linarith
    have := mul_le_mul_of_nonneg_left this (by positivity : 0 ≤ 2 / log 10)
    rw [hk]
    nlinarith
  have hsub : 0 ≤ 1 / p - 1 / u := by
    have := div_le_div_of_nonneg_left (zero_le_one (α := ℝ)) hp hpu
    linarith
  have h4 := mul_le_mul_of_nonneg_right h3 hsub
  rw [cbSlope_sq ha hb hp, ← hk, div_le_iff₀ (by positivity)]
  -- the two differences of roots
  have h5 : p / l - 1 ≤ 83 / 100 * (δ / p ^ 2) := by
    have ht0 : 0 < δ / p ^ 2 := by positivity
    have ht1 : δ / p ^ 2 ≤ 1 / 2 := by rw [div_le_iff₀ (by positivity)]; linarith
    set t := δ / p ^ 2 with ht
    have hl2 : l ^ 2 = p ^ 2 * (1 - t) := by
      rw [← hlx, ht]; field_simp
    rw [sub_le_iff_le_add, div_le_iff₀ hl]
    refine (pow_le_pow_iff_left₀ (by positivity) (by positivity) two_ne_zero).1 ?_
    rw [mul_pow, hl2]
    have : 1 ≤ (83 / 100 * t + 1) ^ 2 * (1 - t) := by
      have h0 : 0 ≤ 66 / 100 - 9711 / 10000 * t - 6889 / 10000 * t ^ 2 := by nlinarith
      have := mul_nonneg ht0.le h0
      nlinarith
    have := mul_le_mul_of_nonneg_left this (by positivity : 0 ≤ p ^ 2)
    nlinarith
  have h6 : u / p - 1 ≤ 1 / 2 * (δ / p ^ 2) := by
    have ht0 : 0 < δ / p ^ 2 := by positivity
    set t := δ / p ^ 2 with ht
    have hu2 : u ^ 2 = p ^ 2 * (1 + t) := by
      rw [← hux, ht]; field_simp
    rw [sub_le_iff_le_add, div_le_iff₀ hp]
    refine (pow_le_pow_iff_left₀ (by positivity) (by positivity) two_ne_zero).1 ?_
    rw [mul_pow, hu2]
    have : 1 + t ≤ (1 / 2 * t + 1) ^ 2 := by nlinarith [sq_nonneg t]
    have := mul_le_mul_of_nonneg_left this (by positivity : 0 ≤ p ^ 2)
    nlinarith
  have e1 : k * (1 / l - 1 / p) = k / p * (p / l - 1) := by field_simp
  have e2 : k * (u / p) * (1 / p - 1 / u) = k / p * (u / p - 1) := by field_simp
  have e3 : 4 / 3 * (k / (2 * p ^ 3)) * (2 * δ) = k / p * (4 / 3 * (δ / p ^ 2)) := by field_simp
  rw [e3]
  rw [e1] at h1
  rw [e2] at h4
  have hkp : 0 ≤ k / p := by positivity
  have h7 := mul_le_mul_of_nonneg_left (add_le_add h5 h6) hkp
  have : k / p * (83 / 100 * (δ / p ^ 2) + 1 / 2 * (δ / p ^ 2)) ≤ k / p * (4 / 3 * (δ / p ^ 2)) := by
    apply mul_le_mul_of_nonneg_left _ hkp
    have : 0 ≤ δ / p ^ 2 := by positivity
    linarith
  linarith

end Tespy
