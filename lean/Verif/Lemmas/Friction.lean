import Verif.Model.Friction
import Verif.Props.Newton
import Mathlib.Analysis.SpecialFunctions.Log.Deriv
import Mathlib.Analysis.SpecialFunctions.Pow.Real
import Mathlib.Tactic.FieldSimp
import Mathlib.Tactic.Positivity

/-!
Lemmas for C80: Newton's method on decreasing convex functions and the function of Colebrook.
-/
namespace Tespy
open Real

/-! ### The Newton iteration from the left of the root of a decreasing convex function -/

theorem newtonLoop_left (a : NewtonArgs ℝ) (g D : ℝ → ℝ) (lo : ℝ) (ht : a.target = 0)
    (hlo : a.valmin ≤ lo) (hhi : lo ≤ a.valmax)
    (hf : ∀ x, lo ≤ x → x ≤ a.valmax → a.f x = .ok (g x))
    (hd : ∀ x, lo ≤ x → x ≤ a.valmax → a.df x = .ok (D x) ∧ D x < 0)
    (anti : ∀ x y, lo ≤ x → x ≤ y → g y ≤ g x)
    (step : ∀ x s, lo ≤ x → x ≤ a.valmax → 0 ≤ g x → 0 ≤ s → s * -(D x) ≤ g x → 0 ≤ g (x + s)) :
    ∀ (n : ℕ) (x : ℝ) (it mx : ℤ) (r : ℝ), lo ≤ x → x ≤ a.valmax → 0 ≤ g x → 0 ≤ r → r ≤ 1 →
      newtonLoop a n x it mx r = none ∨ ∃ out, newtonLoop a n x it mx r = some (.ok out) ∧
        lo ≤ out.x ∧ out.x ≤ a.valmax ∧ 0 ≤ g out.x ∧
        lo ≤ out.xLast ∧ out.xLast ≤ out.x ∧ out.residual = -g out.xLast := by
  intro n
  induction n with
  | zero => intros; left; rfl
  | succ n ih =>
    intro x it mx r hx hx' hg hr hr1
    obtain ⟨hd1, hd2⟩ := hd x hx hx'
    have hs : 0 ≤ (0 - g x) / D x * r := by
      apply mul_nonneg _ hr
      apply div_nonneg_of_nonpos <;> linarith
    have hst := step x ((0 - g x) / D x * r) hx hx' hg hs (by
      have : (0 - g x) / D x * r * -(D x) = g x * r := by
        have hne : D x ≠ 0 := hd2.ne
        calc (0 - g x) / D x * r * -(D x) = g x * r * (D x / D x) := by ring
          _ = g x * r := by rw [div_self hne, mul_one]
      rw [this]; nlinarith)
    have hcl : clamp a.valmin a.valmax (x + (0 - g x) / D x * r)
        = min (x + (0 - g x) / D x * r) a.valmax := by
      unfold clamp
      dsimp only
      have hng : ¬ (x + (0 - g x) / D x * r < a.valmin) := not_lt.2 (by linarith)
      simp only [if_neg hng]
      split
      · rw [min_eq_right (by linarith)]
      · rw [min_eq_left (by linarith)]
    set x' := min (x + (0 - g x) / D x * r) a.valmax with hx'def
    have h1 : x ≤ x' := le_min (by linarith) hx'
    have h2 : x' ≤ a.valmax := min_le_right _ _
    have h3 : 0 ≤ g x' := hst.trans (anti _ _ (by linarith) (min_le_left _ _))
    have hr' : 0 ≤ nextRelax (it + 1) r ∧ nextRelax (it + 1) r ≤ (1 : ℝ) := by
      unfold nextRelax; split
      · constructor <;> norm_num
      · exact ⟨hr, hr1⟩
    unfold newtonLoop
    simp only [hf x hx hx', hd1, ht, hcl, if_neg hd2.ne]
    split
    · exact Or.inr ⟨_, rfl, hx.trans h1, h2, h3, hx, h1, by simp⟩
    · split
      · exact ih x' _ _ _ (hx.trans h1) h2 h3 hr'.1 hr'.2
      · exact Or.inr ⟨_, rfl, hx.trans h1, h2, h3, hx, h1, by simp⟩

theorem log_ge_two_mul {z : ℝ} (hz : 1 ≤ z) : 2 * (z - 1) / (z + 1) ≤ log z := by
  have hz1 : 0 < z + 1 := by linarith
  set t := (z - 1) / (z + 1) with ht
  have ht0 : 0 ≤ t := div_nonneg (by linarith) hz1.le
  have ht1 : t < 1 := by rw [ht, div_lt_one hz1]; linarith
  have hs := Real.hasSum_log_sub_log_of_abs_lt_one (x := t) (by rw [abs_of_nonneg ht0]; exact ht1)
  have h0 := le_hasSum hs 0 (fun j _ => by positivity)
  have hlog : log (1 + t) - log (1 - t) = log z := by
    rw [← Real.log_div (by linarith) (by linarith)]
    congr 1
    rw [ht]; field_simp; ring
  rw [hlog] at h0
  simp at h0
  have : 2 * (z - 1) / (z + 1) = 2 * t := by rw [ht]; ring
  linarith

/-! ### The function of Colebrook -/

/-- `a/√x + b` -/
noncomputable def cbArg (a b x : ℝ) : ℝ := a / √x + b

/-- Left-hand side of the equation of Colebrook with `a = 2.51/re` and `b = ks/(3.71 d)`. -/
noncomputable def cbFun (a b x : ℝ) : ℝ := 2 * logb 10 (cbArg a b x) + 1 / √x

/-- Its slope. -/
noncomputable def cbSlope (a b x : ℝ) : ℝ :=
  (2 / log 10) * (a / (2 * x * (a + b * √x))) + 1 / (2 * x * √x)

theorem log_ten_pos : 0 < log (10 : ℝ) := Real.log_pos (by norm_num)

theorem cbArg_pos {a b x : ℝ} (ha : 0 < a) (hb : 0 ≤ b) (hx : 0 < x) : 0 < cbArg a b x := by
  unfold cbArg
  have := Real.sqrt_pos.2 hx
  positivity

theorem cbFun_anti {a b x y : ℝ} (ha : 0 < a) (hb : 0 ≤ b) (hx : 0 < x) (h : x ≤ y) :
    cbFun a b y ≤ cbFun a b x := by
  have hp := Real.sqrt_pos.2 hx
  have hpq := Real.sqrt_le_sqrt h
  have h1 : a / √y ≤ a / √x := div_le_div_of_nonneg_left ha.le hp hpq
  have h2 : 1 / √y ≤ 1 / √x := div_le_div_of_nonneg_left zero_le_one hp hpq
  have h3 : logb 10 (cbArg a b y) ≤ logb 10 (cbArg a b x) :=
    Real.logb_le_logb_of_le (by norm_num) (cbArg_pos ha hb (hx.trans_le h)) (by unfold cbArg; linarith)
  unfold cbFun
  linarith

theorem cbFun_strictAnti {a b x y : ℝ} (ha : 0 < a) (hb : 0 ≤ b) (hx : 0 < x) (h : x < y) :
    cbFun a b y < cbFun a b x := by
  have hp := Real.sqrt_pos.2 hx
  have hpq := Real.sqrt_lt_sqrt hx.le h
  have h1 : a / √y ≤ a / √x := div_le_div_of_nonneg_left ha.le hp hpq.le
  have h2 : 1 / √y < 1 / √x := div_lt_div_of_pos_left one_pos hp hpq
  have h3 : logb 10 (cbArg a b y) ≤ logb 10 (cbArg a b x) :=
    Real.logb_le_logb_of_le (by norm_num) (cbArg_pos ha hb (hx.trans h)) (by unfold cbArg; linarith)
  unfold cbFun
  linarith

/-- The function lies above its tangents (to the right). -/
theorem cbFun_tangent {a b x y : ℝ} (ha : 0 < a) (hb : 0 ≤ b) (hx : 0 < x) (h : x ≤ y) :
    cbFun a b x - cbSlope a b x * (y - x) ≤ cbFun a b y := by
  obtain ⟨p, hp, hpx⟩ : ∃ p, 0 < p ∧ x = p ^ 2 :=
    ⟨√x, Real.sqrt_pos.2 hx, (Real.sq_sqrt hx.le).symm⟩
  obtain ⟨q, hq, hqy⟩ : ∃ q, 0 < q ∧ y = q ^ 2 :=
    ⟨√y, Real.sqrt_pos.2 (hx.trans_le h), (Real.sq_sqrt (hx.le.trans h)).symm⟩
  have hpq : p ≤ q := by
    by_contra hc
    push Not at hc
    nlinarith
  subst hpx hqy
  have sp : √(p ^ 2) = p := Real.sqrt_sq hp.le
  have sq : √(q ^ 2) = q := Real.sqrt_sq hq.le
  have hA := cbArg_pos ha hb (by positivity : 0 < p ^ 2)
  have hB := cbArg_pos ha hb (by positivity : 0 < q ^ 2)
  have hL := log_ten_pos
  have hab : 0 < a + b * p := by positivity
  have hab' : 0 < a + b * q := by positivity
  -- the reciprocal of the root
  have h1 : 1 / p - 1 / (2 * p ^ 2 * p) * (q ^ 2 - p ^ 2) ≤ 1 / q := by
    rw [← sub_nonneg]
    have : 1 / q - (1 / p - 1 / (2 * p ^ 2 * p) * (q ^ 2 - p ^ 2))
        = (q - p) * (q * (q + p) - 2 * p ^ 2) / (2 * p ^ 3 * q) := by field_simp; ring
    rw [this]
    have : 0 ≤ q * (q + p) - 2 * p ^ 2 := by nlinarith
    have : 0 ≤ q - p := by linarith
    positivity
  -- the logarithm
  have h2 : log (cbArg a b (p ^ 2)) - a / (2 * p ^ 2 * (a + b * p)) * (q ^ 2 - p ^ 2)
      ≤ log (cbArg a b (q ^ 2)) := by
    have hl := Real.one_sub_inv_le_log_of_pos (div_pos hB hA)
    rw [Real.log_div hB.ne' hA.ne'] at hl
    have : 1 - (cbArg a b (q ^ 2) / cbArg a b (p ^ 2))⁻¹
        = -(a * (q - p) / (p * (a + b * q))) := by
      unfold cbArg
      rw [sp, sq]
      have e1 : a / p + b = (a + b * p) / p := by field_simp
      have e2 : a / q + b = (a + b * q) / q := by field_simp
      rw [e1, e2]
      field_simp
      ring
    rw [this] at hl
    have : a * (q - p) / (p * (a + b * q)) ≤ a / (2 * p ^ 2 * (a + b * p)) * (q ^ 2 - p ^ 2) := by
      rw [← sub_nonneg]
      have e : a / (2 * p ^ 2 * (a + b * p)) * (q ^ 2 - p ^ 2) - a * (q - p) / (p * (a + b * q))
          = a * (q - p) * ((q + p) * (a + b * q) - 2 * p * (a + b * p))
            / (2 * p ^ 2 * (a + b * p) * (a + b * q)) := by field_simp; ring
      rw [e]
      have e1 : 0 ≤ (q + p) * (a + b * q) - 2 * p * (a + b * p) := by
        have : 0 ≤ b * (q ^ 2 - p ^ 2) := mul_nonneg hb (by nlinarith)
        have : 0 ≤ b * (p * (q - p)) := mul_nonneg hb (mul_nonneg hp.le (by linarith))
        nlinarith
      have : 0 ≤ q - p := by linarith
      positivity
    linarith
  unfold cbFun cbSlope Real.logb
  rw [sp, sq]
  have h3 : 2 * (log (cbArg a b (p ^ 2)) / log 10)
      - 2 / log 10 * (a / (2 * p ^ 2 * (a + b * p))) * (q ^ 2 - p ^ 2)
      ≤ 2 * (log (cbArg a b (q ^ 2)) / log 10) := by
    have := mul_le_mul_of_nonneg_left h2 (by positivity : 0 ≤ 2 / log 10)
    calc _ = 2 / log 10 * (log (cbArg a b (p ^ 2))
          - a / (2 * p ^ 2 * (a + b * p)) * (q ^ 2 - p ^ 2)) := by ring
      _ ≤ _ := this
      _ = _ := by ring
  linarith

/-- The central difference is at least as steep as the tangent. -/
theorem cbFun_difference {a b x δ : ℝ} (ha : 0 < a) (hb : 0 ≤ b) (hδ : 0 < δ) (hx : δ < x) :
    cbSlope a b x ≤ (cbFun a b (x - δ) - cbFun a b (x + δ)) / (2 * δ) := by
  obtain ⟨p, hp, hpx⟩ : ∃ p, 0 < p ∧ x = p ^ 2 :=
    ⟨√x, Real.sqrt_pos.2 (by linarith), (Real.sq_sqrt (by linarith)).symm⟩
  obtain ⟨l, hl, hlx⟩ : ∃ l, 0 < l ∧ x - δ = l ^ 2 :=
    ⟨√(x - δ), Real.sqrt_pos.2 (by linarith), (Real.sq_sqrt (by linarith)).symm⟩
  obtain ⟨u, hu, hux⟩ : ∃ u, 0 < u ∧ x + δ = u ^ 2 :=
    ⟨√(x + δ), Real.sqrt_pos.2 (by linarith), (Real.sq_sqrt (by linarith)).symm⟩
  have hlu : l < u := by
    by_contra hc
    push Not at hc
    nlinarith
  have hd : 2 * δ = u ^ 2 - l ^ 2 := by linarith
  have hp2 : 2 * p ^ 2 = u ^ 2 + l ^ 2 := by linarith
  have hulp : u * l ≤ p ^ 2 := by nlinarith [sq_nonneg (u - l)]
  have hsum : u + l ≤ 2 * p := by
    by_contra hc
    push Not at hc
    nlinarith [sq_nonneg (u - l)]
  rw [hlx, hux, hd, hpx]
  have sp : √(p ^ 2) = p := Real.sqrt_sq hp.le
  have sl : √(l ^ 2) = l := Real.sqrt_sq hl.le
  have su : √(u ^ 2) = u := Real.sqrt_sq hu.le
  have hA := cbArg_pos ha hb (by positivity : 0 < l ^ 2)
  have hB := cbArg_pos ha hb (by positivity : 0 < u ^ 2)
  have hL := log_ten_pos
  have hdd : 0 < u ^ 2 - l ^ 2 := by nlinarith
  have hab : 0 < a + b * p := by positivity
  have hcube : u * l * (u + l) ≤ 2 * p ^ 3 := by
    calc u * l * (u + l) ≤ p ^ 2 * (2 * p) := by gcongr
      _ = 2 * p ^ 3 := by ring
  rw [le_div_iff₀ hdd]
  have h1 : 1 / (2 * p ^ 2 * p) * (u ^ 2 - l ^ 2) ≤ 1 / l - 1 / u := by
    have e : 1 / l - 1 / u = 1 / (u * l * (u + l)) * (u ^ 2 - l ^ 2) := by field_simp; ring
    rw [e]
    apply mul_le_mul_of_nonneg_right _ hdd.le
    apply div_le_div_of_nonneg_left zero_le_one (by positivity)
    linarith
  have h2 : a / (2 * p ^ 2 * (a + b * p)) * (u ^ 2 - l ^ 2)
      ≤ log (cbArg a b (l ^ 2)) - log (cbArg a b (u ^ 2)) := by
    rw [← Real.log_div hA.ne' hB.ne']
    have hz : cbArg a b (l ^ 2) / cbArg a b (u ^ 2) = u * (a + b * l) / (l * (a + b * u)) := by
      unfold cbArg
      rw [sl, su]
      have e1 : a / l + b = (a + b * l) / l := by field_simp
      have e2 : a / u + b = (a + b * u) / u := by field_simp
      rw [e1, e2]
      have : 0 < a + b * u := by positivity
      field_simp
    have hbu : 0 < a + b * u := by positivity
    have hbl : 0 < a + b * l := by positivity
    have hz1 : 1 ≤ cbArg a b (l ^ 2) / cbArg a b (u ^ 2) := by
      rw [hz, le_div_iff₀ (by positivity)]
      nlinarith
    refine le_trans ?_ (log_ge_two_mul hz1)
    rw [hz]
    have e : 2 * (u * (a + b * l) / (l * (a + b * u)) - 1) / (u * (a + b * l) / (l * (a + b * u)) + 1)
        = 2 * a * (u - l) / (a * (u + l) + 2 * b * (u * l)) := by
      have e1 : u * (a + b * l) / (l * (a + b * u)) - 1 = a * (u - l) / (l * (a + b * u)) := by
        field_simp; ring
      have e2 : u * (a + b * l) / (l * (a + b * u)) + 1
          = (a * (u + l) + 2 * b * (u * l)) / (l * (a + b * u)) := by
        field_simp; ring
      rw [e1, e2]
      have : 0 < a * (u + l) + 2 * b * (u * l) := by positivity
      field_simp
    rw [e]
    have hden : 0 < a * (u + l) + 2 * b * (u * l) := by positivity
    rw [div_mul_eq_mul_div, div_le_div_iff₀ (by positivity) hden]
    have k1 : (u + l) * (a * (u + l) + 2 * b * (u * l)) ≤ 4 * p ^ 2 * (a + b * p) := by
      have : 0 ≤ b * (2 * p ^ 3 - u * l * (u + l)) := mul_nonneg hb (by linarith)
      have : 0 ≤ a * (4 * p ^ 2 - (u + l) ^ 2) := mul_nonneg ha.le (by nlinarith [sq_nonneg (u - l)])
      nlinarith
    have k2 := mul_le_mul_of_nonneg_left k1 (by have : 0 < u - l := by linarith
                                                positivity : 0 ≤ a * (u - l))
    calc a * (u ^ 2 - l ^ 2) * (a * (u + l) + 2 * b * (u * l))
        = a * (u - l) * ((u + l) * (a * (u + l) + 2 * b * (u * l))) := by ring
      _ ≤ a * (u - l) * (4 * p ^ 2 * (a + b * p)) := k2
      _ = 2 * a * (u - l) * (2 * p ^ 2 * (a + b * p)) := by ring
  unfold cbFun cbSlope Real.logb
  rw [sp, sl, su]
  have h3 : 2 / log 10 * (a / (2 * p ^ 2 * (a + b * p))) * (u ^ 2 - l ^ 2)
      ≤ 2 * (log (cbArg a b (l ^ 2)) / log 10) - 2 * (log (cbArg a b (u ^ 2)) / log 10) := by
    have := mul_le_mul_of_nonneg_left h2 (by positivity : 0 ≤ 2 / log 10)
    calc _ = 2 / log 10 * (a / (2 * p ^ 2 * (a + b * p)) * (u ^ 2 - l ^ 2)) := by ring
      _ ≤ _ := this
      _ = _ := by ring
  linarith

end Tespy
