import Verif.Props.Reported
import Mathlib.Tactic.Linarith
import Mathlib.Tactic.Ring
import Mathlib.Tactic.FieldSimp
import Mathlib.Tactic.LinearCombination
import Mathlib.Tactic.NormNum
import Mathlib.Analysis.Real.Pi.Bounds
import Mathlib.Analysis.SpecialFunctions.Pow.Real

/-!
C59: which mass flow a component with given zeta value and pressures has.
-/
namespace Tespy

/-- C59: what the equation of a zeta value means: a loss of pressure with the square of the flow, in its direction; flows
below 0.0001 have none. -/
theorem C59_zeta_meaning (i o : HStream) (zeta : ℝ) (hv : 0 < i.vol + o.vol) :
    zetaRes i o zeta = .ok 0 ↔
      (|i.m| < 1 / 10000 ∧ i.p = o.p) ∨
      (1 / 10000 ≤ |i.m| ∧ (i.p - o.p) * Real.pi ^ 2 = zeta * (8 * |i.m| * i.m * ((i.vol + o.vol) / 2))) := by
  unfold zetaRes
  by_cases hm : |i.m| < 1 / 10000
  · rw [if_pos hm, Except.ok.injEq]
    constructor
    · intro h; exact .inl ⟨hm, by linarith⟩
    · rintro (⟨_, h⟩ | ⟨h, _⟩)
      · linarith
      · exact absurd hm (not_lt.2 h)
  · rw [if_neg hm]
    have hm' := not_lt.1 hm
    have ha : |i.m| ≠ 0 := (lt_of_lt_of_le (by norm_num) hm').ne'
    have hi : i.m ≠ 0 := abs_ne_zero.1 ha
    have hden : 8 * |i.m| * i.m * (i.vol + o.vol) / 2 ≠ 0 := by
      have := hv.ne'
      positivity
    rw [rdiv_of_ne hden]
    simp only [Except.ok.injEq]
    rw [sub_eq_zero, eq_div_iff hden]
    constructor
    · intro h; exact .inr ⟨hm', by linear_combination -h⟩
    · rintro (⟨h, _⟩ | ⟨_, h⟩)
      · exact absurd h hm
      · linear_combination -h

theorem abs_mul_inj {a b : ℝ} (h : |a| * a = |b| * b) : a = b := by
  rcases le_total 0 a with ha | ha <;> rcases le_total 0 b with hb | hb
  · rw [abs_of_nonneg ha, abs_of_nonneg hb] at h; nlinarith
  · rw [abs_of_nonneg ha, abs_of_nonpos hb] at h
    have h1 : a * a = 0 := by nlinarith [mul_self_nonneg a, mul_self_nonneg b]
    have h2 : b * b = 0 := by nlinarith [mul_self_nonneg a, mul_self_nonneg b]
    rw [mul_self_eq_zero.1 h1, mul_self_eq_zero.1 h2]
  · rw [abs_of_nonpos ha, abs_of_nonneg hb] at h
    have h1 : a * a = 0 := by nlinarith [mul_self_nonneg a, mul_self_nonneg b]
    have h2 : b * b = 0 := by nlinarith [mul_self_nonneg a, mul_self_nonneg b]
    rw [mul_self_eq_zero.1 h1, mul_self_eq_zero.1 h2]
  · rw [abs_of_nonpos ha, abs_of_nonpos hb] at h; nlinarith

/-- C59: with a positive zeta value and different pressures the mass flow, and its direction, follow from the pressures. -/
theorem C59_zeta_flow (i o i' o' : HStream) (zeta : ℝ) (hz : 0 < zeta) (hv : 0 < i.vol + o.vol)
    (hv' : i'.vol + o'.vol = i.vol + o.vol) (hp : i'.p - o'.p = i.p - o.p) (hne : i.p ≠ o.p)
    (hs : zetaRes i o zeta = .ok 0) (hs' : zetaRes i' o' zeta = .ok 0) : i.m = i'.m := by
  rw [C59_zeta_meaning i o zeta hv] at hs
  rw [C59_zeta_meaning i' o' zeta (by rw [hv']; exact hv)] at hs'
  rcases hs with ⟨-, h⟩ | ⟨-, h⟩
  · exact absurd h hne
  · rcases hs' with ⟨-, h'⟩ | ⟨-, h'⟩
    · exact absurd (by linarith : i.p = o.p) hne
    · rw [hp, hv', h] at h'
      apply abs_mul_inj
      have hk : zeta * (8 * ((i.vol + o.vol) / 2)) ≠ 0 := by positivity
      apply mul_left_cancel₀ hk
      linear_combination h'

/-- C59 is false as a law for small differences of pressure: below the loss at a flow of 0.0001 no flow satisfies the
equation, and at equal pressures every smaller flow does. -/
theorem C59_zeta_small_false (i o : HStream) (zeta : ℝ) (hz : 0 < zeta) (hv : 0 < i.vol + o.vol) :
    (0 < i.p - o.p → (i.p - o.p) * Real.pi ^ 2 < zeta * (4 * (1 / 10000) ^ 2 * (i.vol + o.vol)) →
      zetaRes i o zeta ≠ .ok 0) ∧
    (i.p = o.p → |i.m| < 1 / 10000 → zetaRes i o zeta = .ok 0) := by
  constructor
  · intro hp hlt h
    rw [C59_zeta_meaning i o zeta hv] at h
    rcases h with ⟨-, h⟩ | ⟨hm, h⟩
    · linarith
    · have hpi : 0 < (i.p - o.p) * Real.pi ^ 2 := by have := Real.pi_pos; positivity
      have hpos : 0 < i.m := by
        by_contra hn
        have hn' := not_lt.1 hn
        have h1 : zeta * (8 * |i.m| * i.m * ((i.vol + o.vol) / 2)) ≤ 0 := by
          have h2 : 0 ≤ zeta * (8 * |i.m|) * ((i.vol + o.vol) / 2) := by positivity
          have := mul_nonpos_of_nonneg_of_nonpos h2 hn'
          linarith
        linarith
      rw [abs_of_pos hpos] at h hm
      have hsq : (1 / 10000 : ℝ) ^ 2 ≤ i.m ^ 2 := pow_le_pow_left₀ (by norm_num) hm 2
      have h3 : zeta * (4 * (1 / 10000) ^ 2 * (i.vol + o.vol)) ≤ zeta * (4 * i.m ^ 2 * (i.vol + o.vol)) :=
        mul_le_mul_of_nonneg_left (mul_le_mul_of_nonneg_right (by linarith) hv.le) hz.le
      have h4 : zeta * (8 * i.m * i.m * ((i.vol + o.vol) / 2)) = zeta * (4 * i.m ^ 2 * (i.vol + o.vol)) := by ring
      linarith
  · intro hp hm
    rw [C59_zeta_meaning i o zeta hv]
    exact .inl ⟨hm, hp⟩

-- non-vacuity: a flow of 1 with a loss of pressure, and a difference without flow
example : ∃ i o : HStream, 0 < i.vol + o.vol ∧ i.p ≠ o.p ∧ zetaRes i o 1 = .ok 0 ∧ i.m = 1 := by
  have hpi := Real.pi_pos
  refine ⟨⟨1, 1 + 4 / Real.pi ^ 2, 0, 0, 1 / 2⟩, ⟨1, 1, 0, 0, 1 / 2⟩, by norm_num, ?_, ?_, rfl⟩
  · have : 0 < 4 / Real.pi ^ 2 := by positivity
    simp only
    linarith
  · rw [C59_zeta_meaning _ _ _ (by norm_num)]
    refine .inr ⟨by norm_num, ?_⟩
    simp only [add_sub_cancel_left]
    rw [div_mul_cancel₀ _ (by positivity)]
    norm_num

example : ∃ i o : HStream, 0 < i.vol + o.vol ∧ 0 < i.p - o.p ∧
    (i.p - o.p) * Real.pi ^ 2 < 10 ^ 8 * (4 * (1 / 10000) ^ 2 * (i.vol + o.vol)) := by
  refine ⟨⟨1, 1 + 1 / 10, 0, 0, 1 / 2⟩, ⟨1, 1, 0, 0, 1 / 2⟩, by norm_num, by norm_num, ?_⟩
  have h1 := Real.pi_lt_four
  have h2 := Real.pi_pos
  have h3 : Real.pi ^ 2 < 16 := by nlinarith
  norm_num
  linarith

/-- C59: all solutions of the Hazen-Williams equation: no difference of pressure at flows below 0.0001, and above a
difference of the size of the loss, of either sign. -/
theorem C59_hazen_meaning (i o : HStream) (L ks D : ℝ) (hL : 0 < L) (hk : 0 < ks) (hD : 0 < D) (hv : 0 < i.vol + o.vol) :
    hazenRes i o L ks D = 0 ↔
      (|i.m| < 1 / 10000 ∧ i.p = o.p) ∨
      (1 / 10000 ≤ i.m ∧ |i.p - o.p| = hazenLoss i.m i.vol o.vol L ks D) := by
  unfold hazenRes copysign
  by_cases hm : |i.m| < 1 / 10000
  · rw [if_pos hm]
    constructor
    · intro h; exact .inl ⟨hm, by linarith⟩
    · rintro (⟨_, h⟩ | ⟨h, _⟩)
      · linarith
      · exact absurd (lt_of_le_of_lt (le_abs_self _) hm) (not_lt.2 h)
  · rw [if_neg hm]
    have hm' := not_lt.1 hm
    have hm0 : i.m ≠ 0 := abs_ne_zero.1 (lt_of_lt_of_le (by norm_num) hm').ne'
    have hl := hazenLoss_pos (L := L) (ks := ks) (D := D) hm0 hv hL hk hD
    by_cases h0 : 0 ≤ i.m
    · rw [if_pos h0, sub_eq_zero]
      rw [abs_of_nonneg h0] at hm'
      constructor
      · intro h; exact .inr ⟨hm', h⟩
      · rintro (⟨h, _⟩ | ⟨_, h⟩)
        · exact absurd h hm
        · exact h
    · rw [if_neg h0]
      constructor
      · intro h
        have := abs_nonneg (i.p - o.p)
        linarith
      · rintro (⟨h, _⟩ | ⟨h, _⟩)
        · exact absurd h hm
        · exact absurd (le_trans (by norm_num) h) h0

/-- C59: the loss after Hazen-Williams grows with the flow. -/
theorem C59_hazen_grows (m m' vi vo L ks D : ℝ) (hL : 0 < L) (hk : 0 < ks) (hD : 0 < D) (hv : 0 < vi + vo)
    (h : |m| < |m'|) : hazenLoss m vi vo L ks D < hazenLoss m' vi vo L ks D := by
  unfold hazenLoss
  have h1 : |m| ^ (1.852 : ℝ) < |m'| ^ (1.852 : ℝ) := Real.rpow_lt_rpow (abs_nonneg m) h (by norm_num)
  have h2 : 0 < ks ^ (1.852 : ℝ) := Real.rpow_pos_of_pos hk _
  have h3 : 0 < D ^ (4.871 : ℝ) := Real.rpow_pos_of_pos hD _
  have h4 : 0 < ((vi + vo) / 2) ^ (0.852 : ℝ) := Real.rpow_pos_of_pos (by linarith) _
  apply mul_lt_mul_of_pos_right _ (by positivity)
  apply div_lt_div_of_pos_right _ (by positivity)
  apply mul_lt_mul_of_pos_right _ hL
  linarith

/-- C59: with the Hazen-Williams equation the size of the flow follows from the difference of the pressures, but not its
direction: the flow leaves at the outlet also if the pressure is higher there. -/
theorem C59_hazen_flow (i o i' o' : HStream) (L ks D : ℝ) (hL : 0 < L) (hk : 0 < ks) (hD : 0 < D)
    (hv : 0 < i.vol + o.vol) (hvi : i'.vol = i.vol) (hvo : o'.vol = o.vol) (hp : |i'.p - o'.p| = |i.p - o.p|)
    (hne : i.p ≠ o.p) (hs : hazenRes i o L ks D = 0) (hs' : hazenRes i' o' L ks D = 0) :
    i.m = i'.m ∧ 0 < i.m := by
  rw [C59_hazen_meaning i o L ks D hL hk hD hv] at hs
  rw [C59_hazen_meaning i' o' L ks D hL hk hD (by rw [hvi, hvo]; exact hv)] at hs'
  have hd : |i.p - o.p| ≠ 0 := abs_ne_zero.2 (sub_ne_zero.2 hne)
  rcases hs with ⟨-, h⟩ | ⟨hm, h⟩
  · exact absurd h hne
  · rcases hs' with ⟨-, h'⟩ | ⟨hm', h'⟩
    · exact absurd (by rw [← hp, h', sub_self, abs_zero]) hd
    · have hpos : 0 < i.m := lt_of_lt_of_le (by norm_num) hm
      have hpos' : 0 < i'.m := lt_of_lt_of_le (by norm_num) hm'
      refine ⟨?_, hpos⟩
      rw [hp, h, hvi, hvo] at h'
      rcases lt_trichotomy i.m i'.m with hlt | heq | hgt
      · have := C59_hazen_grows i.m i'.m i.vol o.vol L ks D hL hk hD hv (by rwa [abs_of_pos hpos, abs_of_pos hpos'])
        linarith
      · exact heq
      · have := C59_hazen_grows i'.m i.m i.vol o.vol L ks D hL hk hD hv (by rwa [abs_of_pos hpos, abs_of_pos hpos'])
        linarith

-- non-vacuity: a flow of 1 towards the higher pressure
example : ∃ i o : HStream, 0 < i.vol + o.vol ∧ i.p ≠ o.p ∧ hazenRes i o 100 100 (1 / 10) = 0 ∧ i.p < o.p ∧ i.m = 1 := by
  have hl := hazenLoss_pos (m := 1) (vi := 1) (vo := 1) (L := 100) (ks := 100) (D := 1 / 10) (by norm_num)
    (by norm_num) (by norm_num) (by norm_num) (by norm_num)
  refine ⟨⟨1, 0, 0, 0, 1⟩, ⟨1, hazenLoss 1 1 1 100 100 (1 / 10), 0, 0, 1⟩, by norm_num, hl.ne, ?_, hl, rfl⟩
  rw [C59_hazen_meaning _ _ _ _ _ (by norm_num) (by norm_num) (by norm_num) (by norm_num)]
  refine .inr ⟨by norm_num, ?_⟩
  simp only [zero_sub, abs_neg]
  exact abs_of_pos hl

end Tespy
