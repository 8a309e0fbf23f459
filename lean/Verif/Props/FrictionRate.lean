import Verif.Lemmas.FrictionRate
import Verif.Props.Friction

/-!
C80, what the iterations for the friction factor return: bounds for the error which need no assumption about the
tolerance, and the refutation that the tolerance is met.
-/
namespace Tespy
open Real

/-! ### Monotony of the maps between successive iterates -/

theorem lowMap_mono {k v w : ℝ} (hk0 : 0 ≤ k) (hk : k ≤ 1) (hv : 0 ≤ v) (hvw : v ≤ w) (hw : w ≤ 1) :
    v ^ 2 * (1 + 2 * k * (1 - v)) ≤ w ^ 2 * (1 + 2 * k * (1 - w)) := by
  have h0 : 0 ≤ w - v := by linarith
  have h1 : 0 ≤ (w + v) * (1 + 2 * k) - 2 * k * (w ^ 2 + w * v + v ^ 2) := by
    have a1 : w ^ 2 ≤ w := by nlinarith
    have a2 : w * v ≤ v := by nlinarith
    have a3 : v ^ 2 ≤ v := by nlinarith
    have a4 : w * v ≤ w := by nlinarith
    have a5 : w ^ 2 + w * v + v ^ 2 ≤ 3 / 2 * (w + v) := by nlinarith
    have a6 : 2 * k * (w ^ 2 + w * v + v ^ 2) ≤ 2 * k * (3 / 2 * (w + v)) :=
      mul_le_mul_of_nonneg_left a5 (by linarith)
    nlinarith
  nlinarith [mul_nonneg h0 h1]

theorem upMap_mono {ρ c v w : ℝ} (hρ0 : 0 ≤ ρ) (hρ : ρ ≤ 1) (hc0 : 0 ≤ c) (hc : c ≤ 1 / 2) (hv : 0 ≤ v)
    (hvw : v ≤ w) (hw : w ≤ 1) :
    v ^ 2 * (1 + 2 * ρ * (1 - v) * (1 + c * (1 - v))) ≤ w ^ 2 * (1 + 2 * ρ * (1 - w) * (1 + c * (1 - w))) := by
  have h1 := lowMap_mono hρ0 hρ hv hvw hw
  -- the rest would need the square of the gap
  have h0 : 0 ≤ w - v := by linarith
  have key : w ^ 2 * (1 + 2 * ρ * (1 - w) * (1 + c * (1 - w))) - v ^ 2 * (1 + 2 * ρ * (1 - v) * (1 + c * (1 - v)))
      = (w - v) * ((w + v) * (1 - ρ) + ρ * ((w + v) * 3 - 2 * (w ^ 2 + w * v + v ^ 2)
        + 2 * c * ((w + v) - 2 * (w ^ 2 + w * v + v ^ 2) + (w + v) * (w ^ 2 + v ^ 2)))) := by ring
  rw [← sub_nonneg, key]
  apply mul_nonneg h0
  have a1 : 0 ≤ (w + v) * (1 - ρ) := mul_nonneg (by linarith) (by linarith)
  have a2 : 0 ≤ (w + v) * 3 - 2 * (w ^ 2 + w * v + v ^ 2)
      + 2 * c * ((w + v) - 2 * (w ^ 2 + w * v + v ^ 2) + (w + v) * (w ^ 2 + v ^ 2)) := by
    have b1 : 0 ≤ (w + v) * 3 - 2 * (w ^ 2 + w * v + v ^ 2) := by nlinarith
    have hw0 : 0 ≤ w := by linarith
    have b2 : 0 ≤ (w + v) * 3 - 2 * (w ^ 2 + w * v + v ^ 2)
        + ((w + v) - 2 * (w ^ 2 + w * v + v ^ 2) + (w + v) * (w ^ 2 + v ^ 2)) := by
      nlinarith [mul_nonneg hw0 (sq_nonneg (1 - w)), mul_nonneg hv (sq_nonneg (1 - v)), mul_nonneg hw0 hv,
        mul_nonneg (mul_nonneg hw0 hv) (by linarith : 0 ≤ 1 - w), mul_nonneg (mul_nonneg hw0 hv) (by linarith : 0 ≤ 1 - v)]
    rcases le_total 0 ((w + v) - 2 * (w ^ 2 + w * v + v ^ 2) + (w + v) * (w ^ 2 + v ^ 2)) with hs | hs
    · have := mul_nonneg hc0 hs
      linarith
    · nlinarith
  have := mul_nonneg hρ0 a2
  linarith

/-! ### One step -/

/-- A step of length `rel·g/d` from the left of the solution `q²`, where `d` is at least the slope and at most
`1/k` times the slope. -/
theorem cb_step {a b p q d rel k : ℝ} (ha : 0 < a) (hb : 0 ≤ b) (hp : 0 < p) (hpq : p ≤ q)
    (h0 : cbFun a b (q ^ 2) = 0) (hrel : 0 < rel) (hrel1 : rel ≤ 1) (hk : 0 < k)
    (hd1 : cbSlope a b (p ^ 2) ≤ d) (hd2 : k * d ≤ cbSlope a b (p ^ 2)) :
    p ^ 2 ≤ p ^ 2 + cbFun a b (p ^ 2) / d * rel ∧
    p ^ 2 + cbFun a b (p ^ 2) / d * rel ≤ q ^ 2 ∧
    p ^ 2 * (1 + 2 * (k * rel) * (1 - p / q)) ≤ p ^ 2 + cbFun a b (p ^ 2) / d * rel ∧
    p ^ 2 + cbFun a b (p ^ 2) / d * rel
      ≤ p ^ 2 * (1 + 2 * rel * (1 - p / q) * (1 + 87 / 100 * q * (1 - p / q))) := by
  have hq : 0 < q := hp.trans_le hpq
  have hp2 : 0 < p ^ 2 := by positivity
  have hs := cbSlope_pos ha hb hp2
  have hd : 0 < d := hs.trans_le hd1
  have hg0 : 0 ≤ cbFun a b (p ^ 2) := by
    rw [← h0]; exact cbFun_anti ha hb hp2 (by nlinarith)
  have hw : 0 ≤ 1 - p / q := by
    rw [sub_nonneg, div_le_one hq]; exact hpq
  have hgd : 0 ≤ cbFun a b (p ^ 2) / d := by positivity
  have hl := cb_lower ha hb hp hq h0
  have hu := cb_upper ha hb hp hpq h0
  refine ⟨by have := mul_nonneg hgd hrel.le; linarith, ?_, ?_, ?_⟩
  · -- Newton's method from the left stays left
    by_contra hc
    push Not at hc
    have hle : p ^ 2 ≤ q ^ 2 := by nlinarith
    have ht := cbFun_tangent ha hb hp2 hle
    rw [h0] at ht
    have h1 : cbFun a b (p ^ 2) ≤ d * (q ^ 2 - p ^ 2) := by
      have : cbSlope a b (p ^ 2) * (q ^ 2 - p ^ 2) ≤ d * (q ^ 2 - p ^ 2) :=
        mul_le_mul_of_nonneg_right hd1 (by linarith)
      linarith
    have h2 : cbFun a b (p ^ 2) / d ≤ q ^ 2 - p ^ 2 := by
      rw [div_le_iff₀ hd]; linarith
    have h3 : cbFun a b (p ^ 2) / d * rel ≤ cbFun a b (p ^ 2) / d := by nlinarith
    linarith
  · have h1 : 2 * p ^ 2 * (1 - p / q) * k ≤ cbFun a b (p ^ 2) / d := by
      rw [le_div_iff₀ hd]
      have : k * d * (2 * p ^ 2 * (1 - p / q)) ≤ cbSlope a b (p ^ 2) * (2 * p ^ 2 * (1 - p / q)) :=
        mul_le_mul_of_nonneg_right hd2 (by positivity)
      nlinarith
    have := mul_le_mul_of_nonneg_right h1 hrel.le
    nlinarith
  · have h1 : cbFun a b (p ^ 2) / d ≤ 2 * p ^ 2 * (1 - p / q) * (1 + 87 / 100 * q * (1 - p / q)) := by
      rw [div_le_iff₀ hd]
      refine hu.trans ?_
      rw [mul_comm]
      exact mul_le_mul_of_nonneg_left hd1 (by positivity)
    have := mul_le_mul_of_nonneg_right h1 hrel.le
    nlinarith

theorem clamp_id {lo hi x : ℝ} (h1 : lo ≤ x) (h2 : x ≤ hi) : clamp lo hi x = x := by
  unfold clamp
  simp only [if_neg (not_lt.2 h1)]
  rw [if_neg (not_lt.2 h2)]

/-- The bounds of successive iterates, as fractions of the root of the solution. -/
theorem bound_step {a b p q d k c lo hi lo' hi' : ℝ} {i : ℕ} (ha : 0 < a) (hb : 0 ≤ b) (hp : 0 < p) (hpq : p ≤ q)
    (h0 : cbFun a b (q ^ 2) = 0) (hk : 0 < k) (hk1 : k ≤ 1) (hd1 : cbSlope a b (p ^ 2) ≤ d)
    (hd2 : k * d ≤ cbSlope a b (p ^ 2)) (hc : 87 / 100 * q ≤ c) (hc1 : c ≤ 1 / 2)
    (hlo0 : 0 ≤ lo) (hlo : lo * q ≤ p) (hhi : p ≤ hi * q) (hhi1 : hi ≤ 1) (hlo'0 : 0 ≤ lo') (hhi'0 : 0 ≤ hi')
    (hlow : lo' ^ 2 ≤ lo ^ 2 * (1 + 2 * (k * relOf i) * (1 - lo)))
    (hupp : hi ^ 2 * (1 + 2 * relOf i * (1 - hi) * (1 + c * (1 - hi))) ≤ hi' ^ 2) :
    p ^ 2 ≤ p ^ 2 + cbFun a b (p ^ 2) / d * relOf i ∧ p ^ 2 + cbFun a b (p ^ 2) / d * relOf i ≤ q ^ 2 ∧
    lo' * q ≤ √(p ^ 2 + cbFun a b (p ^ 2) / d * relOf i) ∧ √(p ^ 2 + cbFun a b (p ^ 2) / d * relOf i) ≤ hi' * q := by
  have hq : 0 < q := hp.trans_le hpq
  obtain ⟨s1, s2, s3, s4⟩ := cb_step ha hb hp hpq h0 (relOf_pos i) (relOf_le i) hk hd1 hd2
  have hr0 := relOf_pos i
  have hr1 := relOf_le i
  have hw1 : p / q ≤ 1 := by rw [div_le_one hq]; exact hpq
  have hlw : lo ≤ p / q := by rw [le_div_iff₀ hq]; exact hlo
  have hwh : p / q ≤ hi := by rw [div_le_iff₀ hq]; exact hhi
  have hw0 : 0 ≤ p / q := by positivity
  refine ⟨s1, s2, ?_, ?_⟩
  · apply Real.le_sqrt_of_sq_le
    refine le_trans ?_ s3
    have m := lowMap_mono (k := k * relOf i) (by positivity) (by nlinarith) hlo0 hlw hw1
    have := mul_le_mul_of_nonneg_left (hlow.trans m) (by positivity : 0 ≤ q ^ 2)
    have e : q ^ 2 * ((p / q) ^ 2 * (1 + 2 * (k * relOf i) * (1 - p / q)))
        = p ^ 2 * (1 + 2 * (k * relOf i) * (1 - p / q)) := by field_simp
    rw [e] at this
    have e3 : (lo' * q) ^ 2 = q ^ 2 * lo' ^ 2 := by ring
    rw [e3]
    exact this
  · refine Real.sqrt_le_iff.2 ⟨by positivity, s4.trans ?_⟩
    have m := upMap_mono (ρ := relOf i) (c := c) hr0.le hr1 (by nlinarith) hc1 hw0 hwh hhi1
    have := mul_le_mul_of_nonneg_left (m.trans hupp) (by positivity : 0 ≤ q ^ 2)
    have e : q ^ 2 * ((p / q) ^ 2 * (1 + 2 * relOf i * (1 - p / q) * (1 + c * (1 - p / q))))
        = p ^ 2 * (1 + 2 * relOf i * (1 - p / q) * (1 + c * (1 - p / q))) := by field_simp
    rw [e] at this
    have h5 : p ^ 2 * (1 + 2 * relOf i * (1 - p / q) * (1 + 87 / 100 * q * (1 - p / q)))
        ≤ p ^ 2 * (1 + 2 * relOf i * (1 - p / q) * (1 + c * (1 - p / q))) := by
      have hw : 0 ≤ 1 - p / q := by linarith
      gcongr
    have e3 : (hi' * q) ^ 2 = q ^ 2 * hi' ^ 2 := by ring
    rw [e3]
    exact h5.trans this


/-- Bounds of the iterates: root of the quotient of iterate and solution. -/
noncomputable def roughLow : ℕ → ℝ
  | 0 => 1 / 10
  | 1 => 15329 / 100000
  | 2 => 4619 / 20000
  | 3 => 8473 / 25000
  | 4 => 4783 / 10000
  | 5 => 31929 / 50000
  | 6 => 15147 / 20000
  | 7 => 85449 / 100000
  | 8 => 92177 / 100000
  | 9 => 96147 / 100000
  | 10 => 3069 / 3125
  | 11 => 12399 / 12500
  | 12 => 99641 / 100000
  | 13 => 49921 / 50000
  | _ => 0

/-- Bounds of the iterates: root of the quotient of iterate and solution. -/
noncomputable def roughUp : ℕ → ℝ
  | 0 => 3163 / 10000
  | 1 => 522805498489 / 1000000000000
  | 2 => 190842196177 / 250000000000
  | 3 => 940195815101 / 1000000000000
  | 4 => 199214875953 / 200000000000
  | 5 => 999982907609 / 1000000000000
  | 6 => 31249866459 / 31250000000
  | 7 => 49999946583 / 50000000000
  | 8 => 249999933229 / 250000000000
  | 9 => 99999993323 / 100000000000
  | 10 => 999999983309 / 1000000000000
  | 11 => 999999995829 / 1000000000000
  | _ => 1

/-- Bounds of the iterates: root of the quotient of iterate and solution. -/
noncomputable def smoothLow : ℕ → ℝ
  | 1 => 18 / 625
  | 2 => 247 / 5000
  | 3 => 4207 / 50000
  | 4 => 7079 / 50000
  | 5 => 2917 / 12500
  | 6 => 4277 / 12500
  | 7 => 12057 / 25000
  | 8 => 32141 / 50000
  | 9 => 39831 / 50000
  | 10 => 18201 / 20000
  | 11 => 1939 / 2000
  | 12 => 49571 / 50000
  | 13 => 99777 / 100000
  | _ => 0

/-- Bounds of the iterates: root of the quotient of iterate and solution. -/
noncomputable def smoothUp : ℕ → ℝ
  | 1 => 2059 / 50000
  | 2 => 362613 / 5000000
  | 3 => 1261769 / 10000000
  | 4 => 42977 / 200000
  | 5 => 3526677 / 10000000
  | 6 => 5029511 / 10000000
  | 7 => 1343033 / 2000000
  | 8 => 8248757 / 10000000
  | 9 => 9285943 / 10000000
  | 10 => 9773973 / 10000000
  | 11 => 198773 / 200000
  | 12 => 1996861 / 2000000
  | 13 => 4998027 / 5000000
  | _ => 1

theorem roughLow_step (i : ℕ) (hi : i ≤ 12) :
    0 ≤ roughLow i ∧ 0 ≤ roughLow (i + 1) ∧
      roughLow (i + 1) ^ 2 ≤ roughLow i ^ 2 * (1 + 2 * (3 / 4 * relOf i) * (1 - roughLow i)) := by
  interval_cases i <;> norm_num [roughLow, relOf]

theorem roughUp_step (i : ℕ) (hi : i ≤ 12) :
    roughUp i ≤ 1 ∧ 0 ≤ roughUp (i + 1) ∧
      roughUp i ^ 2 * (1 + 2 * relOf i * (1 - roughUp i) * (1 + 39 / 100 * (1 - roughUp i))) ≤ roughUp (i + 1) ^ 2 := by
  interval_cases i <;> norm_num [roughUp, relOf]

theorem smoothLow_step (i : ℕ) (hi : i ≤ 12) (h1 : 1 ≤ i) :
    0 ≤ smoothLow i ∧ 0 ≤ smoothLow (i + 1) ∧
      smoothLow (i + 1) ^ 2 ≤ smoothLow i ^ 2 * (1 + 2 * (1 * relOf i) * (1 - smoothLow i)) := by
  interval_cases i <;> norm_num [smoothLow, relOf]

theorem smoothUp_step (i : ℕ) (hi : i ≤ 12) (h1 : 1 ≤ i) :
    smoothUp i ≤ 1 ∧ 0 ≤ smoothUp (i + 1) ∧
      smoothUp i ^ 2 * (1 + 2 * relOf i * (1 - smoothUp i) * (1 + 1 / 10 * (1 - smoothUp i))) ≤ smoothUp (i + 1) ^ 2 := by
  interval_cases i <;> norm_num [smoothUp, relOf]

/-! ### The rough regime -/

/-- The run of the iteration of Colebrook's equation. -/
theorem colebrook_rate {re ks d r : ℝ} (hre : 0 < re) (hre' : re ≤ 10 ^ 12) (hks : 0 ≤ ks) (hd : 0 < d)
    (hr : r ≤ 2 / 10) (hr0 : 0 < r) (hlaw : Spec.ColebrookLaw re ks d r) :
    ∃ out j, newton (colebrookArgs re ks d) 13 = some (.ok out) ∧ j ≤ 12 ∧ 2 / 1000 ≤ r ∧ out.x ≤ r ∧
      2 / 1000 ≤ out.xLast ∧ out.xLast ≤ r ∧
      roughLow (j + 1) * √r ≤ √out.x ∧ (1 / 50 ≤ r → √out.xLast ≤ roughUp j * √r) ∧
      (out.limit = true ↔ j = 12) ∧
      (out.limit = false → |cbFun (251 / 100 / re) (ks / (371 / 100 * d)) out.xLast| < 1 / 10 ^ 12) := by
  have ha : 0 < 251 / 100 / re := by positivity
  have hb : 0 ≤ ks / (371 / 100 * d) := by positivity
  set a := 251 / 100 / re with hadef
  set b := ks / (371 / 100 * d) with hbdef
  have hroot : cbFun a b r = 0 := colebrook_law.1 hlaw
  have hstart : 2 / 1000 ≤ r := by
    by_contra hc
    push Not at hc
    have h1 := cbFun_strictAnti ha hb hr0 hc
    have h2 : 0 ≤ cbFun a b (2 / 1000) := cbFun_start hre hre' hb
    rw [hroot] at h1
    linarith
  set q := √r with hq
  have hq0 : 0 < q := Real.sqrt_pos.2 hr0
  have hq2 : q ^ 2 = r := Real.sq_sqrt hr0.le
  have hqc : 87 / 100 * q ≤ 39 / 100 := by
    have : q ≤ 448 / 1000 := Real.sqrt_le_iff.2 ⟨by norm_num, by norm_num; linarith⟩
    linarith
  let U : ℕ → ℝ := fun i => if 1 / 50 ≤ r then roughUp i else 1
  have hU : ∀ i, i ≤ 12 → U i ≤ 1 ∧ 0 ≤ U (i + 1) ∧
      U i ^ 2 * (1 + 2 * relOf i * (1 - U i) * (1 + 39 / 100 * (1 - U i))) ≤ U (i + 1) ^ 2 := by
    intro i hi
    by_cases h : 1 / 50 ≤ r
    · simp only [U, if_pos h]; exact roughUp_step i hi
    · simp only [U, if_neg h]; norm_num
  let D : ℝ → ℝ := fun x => (cbFun a b (x + 1 / 1000) - cbFun a b (x - 1 / 1000)) / (2 * (1 / 1000))
  have hD : ∀ x, 2 / 1000 ≤ x → cbSlope a b x ≤ -D x ∧ 3 / 4 * -D x ≤ cbSlope a b x := by
    intro x hx
    have hx0 : 0 < x := by linarith
    have e : x = √x ^ 2 := (Real.sq_sqrt hx0.le).symm
    have hneg : -D x = (cbFun a b (x - 1 / 1000) - cbFun a b (x + 1 / 1000)) / (2 * (1 / 1000)) := by
      simp only [D]; ring
    rw [hneg]
    refine ⟨cbFun_difference ha hb (by norm_num) (by linarith), ?_⟩
    have := cb_difference_upper ha hb (p := √x) (δ := 1 / 1000) (Real.sqrt_pos.2 hx0) (by norm_num)
      (by rw [← e]; linarith)
    rw [← e] at this
    linarith
  have hslope : ∀ x, 2 / 1000 ≤ x → 0 < cbSlope a b x := fun x hx => cbSlope_pos ha hb (by linarith)
  have inv := newtonLoop_invariant (colebrookArgs re ks d) (cbFun a b) D
    (fun i x => 2 / 1000 ≤ x ∧ x ≤ r ∧ roughLow i * q ≤ √x ∧ √x ≤ U i * q) rfl
    (fun i x _ h => colebrook_ok hre hks hd (by linarith [h.1]))
    (fun i x _ h => ⟨colebrook_diff hre hks hd (by linarith [h.1]), by
      have t1 := (hD x h.1).1
      have t2 := hslope x h.1
      intro h0
      linarith⟩)
    (fun i x hi h => by
      obtain ⟨h1, h2, h3, h4⟩ := h
      have hx0 : 0 < x := by linarith
      obtain ⟨l1, l2, l3⟩ := roughLow_step i hi
      obtain ⟨u1, u2, u3⟩ := hU i hi
      have e : x = √x ^ 2 := (Real.sq_sqrt hx0.le).symm
      have hp0 : 0 < √x := Real.sqrt_pos.2 hx0
      obtain ⟨b1, b2, b3, b4⟩ := bound_step (a := a) (b := b) (p := √x) (q := q) (d := -D x) (k := 3 / 4)
        (c := 39 / 100) (lo := roughLow i) (hi := U i) (lo' := roughLow (i + 1)) (hi' := U (i + 1)) (i := i)
        ha hb hp0 (Real.sqrt_le_sqrt h2) (by rw [hq2]; exact hroot) (by norm_num) (by norm_num)
        (by rw [← e]; exact (hD x h1).1) (by rw [← e]; exact (hD x h1).2) hqc (by norm_num) l1 h3 h4 u1 l2 u2 l3 u3
      rw [← e, hq2] at b2
      rw [← e] at b1 b3 b4
      have ee : x + (0 - cbFun a b x) / D x * relOf i = x + cbFun a b x / -D x * relOf i := by
        rw [zero_sub, neg_div, div_neg]
      have hc : clamp (colebrookArgs re ks d).valmin (colebrookArgs re ks d).valmax
          (x + (0 - cbFun a b x) / D x * relOf i) = x + cbFun a b x / -D x * relOf i := by
        rw [ee]
        apply clamp_id
        · change (1 / 10000 : ℝ) ≤ _; linarith
        · change _ ≤ (2 / 10 : ℝ); linarith
      rw [hc]
      exact ⟨by linarith, b2, b3, b4⟩)
    13 0 (2 / 1000) (by norm_num) ⟨le_rfl, hstart, by
      have : (1 / 10 * q) ^ 2 ≤ 2 / 1000 := by rw [mul_pow, hq2]; linarith
      exact Real.le_sqrt_of_sq_le this, by
      by_cases h : 1 / 50 ≤ r
      · simp only [U, if_pos h]
        refine Real.sqrt_le_iff.2 ⟨by simp only [roughUp]; positivity, ?_⟩
        rw [mul_pow, hq2]
        simp only [roughUp]
        nlinarith
      · simp only [U, if_neg h, one_mul]
        exact Real.sqrt_le_sqrt hstart⟩
  rcases inv with h | ⟨out, j, h, -, hj, hI, hI', -, hlim, htol⟩
  · obtain ⟨o, ho⟩ := C08_newton_terminates (colebrookArgs re ks d)
    have := ho.1 13 le_rfl
    unfold newton at this
    rw [show (colebrookArgs re ks d).val0 = 2 / 1000 from rfl,
      show (colebrookArgs re ks d).maxIter = 10 from rfl] at this
    have e1 : limOf 0 = 10 := rfl
    have e2 : relOf 0 = 1 := by norm_num [relOf]
    rw [e1, e2] at h
    push_cast at h
    rw [h] at this
    cases this
  · have e1 : limOf 0 = 10 := rfl
    have e2 : relOf 0 = 1 := by norm_num [relOf]
    rw [e1, e2] at h
    push_cast at h
    refine ⟨out, j, h, hj, hstart, hI'.2.1, hI.1, hI.2.1, hI'.2.2.1, ?_, hlim, ?_⟩
    · intro h50
      have := hI.2.2.2
      simp only [U, if_pos h50] at this
      exact this
    · intro hf
      have := htol hf
      change _ < ((1 / 1000000) ^ 2 : ℝ) at this
      norm_num at this ⊢
      exact this

/-- C80, rough pipes and transition, without assumption about the tolerance: for a roughness of at most a tenth of the
diameter the returned value is the solution of the law of Colebrook and White but for an error of at most 0.4 %, and
never above it. -/
theorem C80_rough (re ks d : ℝ) (hre : 2320 < re) (h12 : re ≤ 10 ^ 12) (hd : 0 < d) (hks : 0 ≤ ks) (hkd : ks ≤ d / 10)
    (h : 65 ≤ re * ks / d) :
    ∃ f r, darcyFriction re ks d = .ok f ∧ 0 < r ∧ Spec.ColebrookLaw re ks d r ∧
      (∀ r', 0 < r' → Spec.ColebrookLaw re ks d r' → r' = r) ∧ 996 / 1000 * r ≤ f ∧ f ≤ r := by
  have hre0 : 0 < re := by linarith
  obtain ⟨⟨out, ho, hf, hx0, -, -, htol⟩, hex⟩ := C80_rough_partial re ks d hre h12 hd hks h
  obtain ⟨r, hr0, hr2, hlaw, huniq⟩ := hex hkd
  obtain ⟨out', j, ho', hj, hrlo, hle, -, -, hlow, -, hlim, -⟩ := colebrook_rate hre0 h12 hks hd hr2 hr0 hlaw
  have : out' = out := by
    rw [ho] at ho'
    injection ho' with h1
    injection h1 with h2
    exact h2.symm
  subst this
  refine ⟨out'.x, r, hf, hr0, hlaw, huniq, ?_, hle⟩
  by_cases hl : out'.limit = true
  · have hj12 := hlim.1 hl
    rw [hj12] at hlow
    have h1 : (roughLow 13 * √r) ^ 2 ≤ √out'.x ^ 2 := by
      apply pow_le_pow_left₀ _ hlow
      simp only [roughLow]; positivity
    rw [mul_pow, Real.sq_sqrt hr0.le, Real.sq_sqrt (by linarith)] at h1
    simp only [roughLow] at h1
    norm_num at h1
    linarith
  · have := htol r hr0 hr2 hlaw (by simpa using hl)
    rw [abs_le] at this
    have := this.1
    norm_num at this
    linarith

/-- C80 refuted for rough pipes: whenever the friction factor is 0.02 or more, the iteration is stopped by the limit
of iterations with a residual above its tolerance. -/
theorem C80_rough_tolerance_false (re ks d r : ℝ) (hre : 2320 < re) (h12 : re ≤ 10 ^ 12) (hd : 0 < d) (hks : 0 ≤ ks)
    (hr1 : 1 / 50 ≤ r) (hr2 : r ≤ 2 / 10) (hlaw : Spec.ColebrookLaw re ks d r) :
    ∃ out, newton (colebrookArgs re ks d) 13 = some (.ok out) ∧ out.limit = true := by
  have hre0 : 0 < re := by linarith
  have hr0 : 0 < r := by linarith
  obtain ⟨out, j, ho, hj, -, -, hx1, hx2, -, hup, hlim, htol⟩ := colebrook_rate hre0 h12 hks hd hr2 hr0 hlaw
  refine ⟨out, ho, ?_⟩
  by_contra hl
  have hj11 : j ≤ 11 := by
    have : j ≠ 12 := fun h => hl (hlim.2 h)
    omega
  have ht := htol (by simpa using hl)
  have ha : 0 < 251 / 100 / re := by positivity
  have hb : 0 ≤ ks / (371 / 100 * d) := by positivity
  have hgap := cbFun_gap ha hb (x := out.xLast) (y := r) (by linarith) hx2 hr2
  rw [colebrook_law.1 hlaw, sub_zero] at hgap
  have h2 := le_abs_self (cbFun (251 / 100 / re) (ks / (371 / 100 * d)) out.xLast)
  have hU : roughUp j ≤ 999999995829 / 1000000000000 := by
    interval_cases j <;> norm_num [roughUp]
  have h3 : √out.xLast ≤ 999999995829 / 1000000000000 * √r :=
    (hup hr1).trans (mul_le_mul_of_nonneg_right hU (Real.sqrt_nonneg _))
  have h4 : √out.xLast ^ 2 ≤ (999999995829 / 1000000000000 * √r) ^ 2 :=
    pow_le_pow_left₀ (Real.sqrt_nonneg _) h3 2
  rw [mul_pow, Real.sq_sqrt hr0.le, Real.sq_sqrt (by linarith)] at h4
  norm_num at h4 ht
  linarith

/-! ### The smooth regime -/

theorem pk_cb {re x : ℝ} (hre : 0 < re) (hx : 0 < x) : pkFun re x = -cbFun ((10 : ℝ) ^ (2 / 5 : ℝ) / re) 0 x := by
  have hs := Real.sqrt_pos.2 hx
  have h10 : 0 < (10 : ℝ) ^ (2 / 5 : ℝ) := by positivity
  unfold pkFun cbFun cbArg
  have e : (10 : ℝ) ^ (2 / 5 : ℝ) / re / √x + 0 = (10 : ℝ) ^ (2 / 5 : ℝ) / (re * √x) := by rw [add_zero, div_div]
  rw [e, Real.logb_div h10.ne' (by positivity), Real.logb_rpow (by norm_num) (by norm_num)]
  ring

theorem pk_slope {re x : ℝ} (hre : 0 < re) (hx : 0 < x) :
    prandtlKarmanDeriv x = .ok (cbSlope ((10 : ℝ) ^ (2 / 5 : ℝ) / re) 0 x) := by
  have h10 : 0 < (10 : ℝ) ^ (2 / 5 : ℝ) / re := by positivity
  have hL := log_ten_pos
  have hs := Real.sqrt_pos.2 hx
  unfold prandtlKarmanDeriv cbSlope
  rw [if_neg hx.ne']
  congr 1
  generalize (10 : ℝ) ^ (2 / 5 : ℝ) / re = a at *
  have e : x ^ (-(3 / 2) : ℝ) = 1 / (x * √x) := by
    rw [Real.rpow_neg hx.le, show (3 / 2 : ℝ) = 1 + 1 / 2 by norm_num, Real.rpow_add hx, Real.rpow_one,
      ← Real.sqrt_eq_rpow, one_div]
  rw [e]
  field_simp
  ring

/-- From the right of the solution a step of Newton's method leads to its left. -/
theorem cb_step_right {a p q : ℝ} (ha : 0 < a) (hq : 0 < q) (hqp : q ≤ p) (h0 : cbFun a 0 (q ^ 2) = 0) :
    p ^ 2 + cbFun a 0 (p ^ 2) / cbSlope a 0 (p ^ 2) ≤ q ^ 2 := by
  have hp : 0 < p := hq.trans_le hqp
  have hL := log_ten_pos
  have hs := cbSlope_pos ha le_rfl (by positivity : 0 < p ^ 2)
  have hc := cbFun_conc ha le_rfl hp hq
  rw [h0, zero_add] at hc
  have key : cbFun a 0 (p ^ 2) ≤ (q ^ 2 - p ^ 2) * cbSlope a 0 (p ^ 2) := by
    refine hc.trans ?_
    rw [cbSlope_sq ha le_rfl hp]
    have e1 : a * q / (a + 0 * q) = q := by rw [zero_mul, add_zero]; field_simp
    have e2 : a * p / (a + 0 * p) = p := by rw [zero_mul, add_zero]; field_simp
    rw [e1, e2]
    set c := 2 / log 10 with hcdef
    have hc0 : 0 < c := by positivity
    rw [← sub_nonneg]
    have e3 : (q ^ 2 - p ^ 2) * ((1 + c * p) / (2 * p ^ 3)) - (1 + c * q) * (1 / p - 1 / q)
        = (p - q) * ((2 * p ^ 2 - q * (p + q)) + c * p * q * (p - q)) / (2 * p ^ 3 * q) := by
      field_simp
      ring
    rw [e3]
    have k1 : 0 ≤ p - q := by linarith
    have k2 : 0 ≤ 2 * p ^ 2 - q * (p + q) := by nlinarith
    positivity
  have : cbFun a 0 (p ^ 2) / cbSlope a 0 (p ^ 2) ≤ q ^ 2 - p ^ 2 := by
    rw [div_le_iff₀ hs]; exact key
  linarith

theorem logb_ten_ge {x : ℝ} (n m : ℕ) (hn : 0 < n) (hx : 0 < x) (h : (10 : ℝ) ^ m ≤ x ^ n) : (m : ℝ) / n ≤ logb 10 x := by
  have h1 : logb 10 ((10 : ℝ) ^ m) ≤ logb 10 (x ^ n) := Real.logb_le_logb_of_le (by norm_num) (by positivity) h
  rw [Real.logb_pow, Real.logb_pow, Real.logb_self_eq_one (by norm_num), mul_one] at h1
  rw [div_le_iff₀ (by exact_mod_cast hn)]
  linarith

theorem logb_ten_le {x : ℝ} (n m : ℕ) (hn : 0 < n) (hx : 0 < x) (h : x ^ n ≤ (10 : ℝ) ^ m) : logb 10 x ≤ (m : ℝ) / n := by
  have h1 : logb 10 (x ^ n) ≤ logb 10 ((10 : ℝ) ^ m) := Real.logb_le_logb_of_le (by norm_num) (by positivity) h
  rw [Real.logb_pow, Real.logb_pow, Real.logb_self_eq_one (by norm_num), mul_one] at h1
  rw [le_div_iff₀ (by exact_mod_cast hn)]
  linarith

/-- The solution is at most 0.012. -/
theorem smooth_le {re r : ℝ} (h6 : 10 ^ 6 ≤ re) (hr0 : 0 < r) (hlaw : Spec.SmoothLaw re r) : r ≤ 12 / 1000 := by
  have hre : 0 < re := lt_of_lt_of_le (by positivity) h6
  by_contra hc
  push Not at hc
  have h1 := pkFun_strictMono hre (by norm_num : (0 : ℝ) < 12 / 1000) hc
  rw [smooth_law.1 hlaw] at h1
  have hs : 1095 / 10000 ≤ √(12 / 1000 : ℝ) := Real.le_sqrt_of_sq_le (by norm_num)
  have h2 : (5 : ℝ) ≤ logb 10 (re * √(12 / 1000)) := by
    have := logb_ten_ge (x := re * √(12 / 1000)) 1 5 one_pos (by positivity) (by
      have : 10 ^ 6 * (1095 / 10000) ≤ re * √(12 / 1000 : ℝ) := mul_le_mul h6 hs (by norm_num) hre.le
      norm_num at this ⊢
      linarith)
    simpa using this
  have h3 : 1 / √(12 / 1000 : ℝ) ≤ 914 / 100 := by
    rw [div_le_iff₀ (by linarith)]; linarith
  unfold pkFun at h1
  linarith

/-- The solution is at least 0.0059 up to a Reynolds number of `10^8`. -/
theorem smooth_ge {re r : ℝ} (hre : 0 < re) (h8 : re ≤ 10 ^ 8) (hr0 : 0 < r) (hlaw : Spec.SmoothLaw re r) :
    59 / 10000 ≤ r := by
  by_contra hc
  push Not at hc
  have h1 := pkFun_strictMono hre hr0 hc
  rw [smooth_law.1 hlaw] at h1
  have hs : √(59 / 10000 : ℝ) ≤ 7682 / 100000 := Real.sqrt_le_iff.2 ⟨by norm_num, by norm_num⟩
  have hs0 : 0 < √(59 / 10000 : ℝ) := Real.sqrt_pos.2 (by norm_num)
  have h2 : logb 10 (re * √(59 / 10000)) ≤ 69 / 10 := by
    have := logb_ten_le (x := re * √(59 / 10000)) 10 69 (by norm_num) (by positivity) (by
      have h : re * √(59 / 10000 : ℝ) ≤ 10 ^ 8 * (7682 / 100000) := mul_le_mul h8 hs hs0.le (by positivity)
      have := pow_le_pow_left₀ (by positivity) h 10
      refine this.trans ?_
      norm_num)
    simpa using this
  have h3 : 13017 / 1000 ≤ 1 / √(59 / 10000 : ℝ) := by
    rw [le_div_iff₀ hs0]; linarith
  unfold pkFun at h1
  linarith

/-- From a Reynolds number of `10^7` on the first step ends at the lower limit of values. -/
theorem smooth_first {re : ℝ} (h7 : 10 ^ 7 ≤ re) :
    1 / 50 + (0 - pkFun re (1 / 50)) / cbSlope ((10 : ℝ) ^ (2 / 5 : ℝ) / re) 0 (1 / 50) ≤ 0 := by
  have hre : 0 < re := lt_of_lt_of_le (by positivity) h7
  have ha : 0 < (10 : ℝ) ^ (2 / 5 : ℝ) / re := by positivity
  have hL := log_ten_ge
  have hs : 1414 / 10000 ≤ √(1 / 50 : ℝ) := Real.le_sqrt_of_sq_le (by norm_num)
  have hs0 : 0 < √(1 / 50 : ℝ) := by linarith
  have h1 : 61 / 10 ≤ logb 10 (re * √(1 / 50)) := by
    have := logb_ten_ge (x := re * √(1 / 50)) 10 61 (by norm_num) (by positivity) (by
      have h : 10 ^ 7 * (1414 / 10000) ≤ re * √(1 / 50 : ℝ) := mul_le_mul h7 hs (by norm_num) hre.le
      have := pow_le_pow_left₀ (by norm_num) h 10
      refine le_trans ?_ this
      norm_num)
    simpa using this
  have h2 : 1 / √(1 / 50 : ℝ) ≤ 708 / 100 := by
    rw [div_le_iff₀ hs0]; linarith
  have h3 : 4 ≤ pkFun re (1 / 50) := by unfold pkFun; linarith
  have hsl := cbSlope_pos ha le_rfl (by norm_num : (0 : ℝ) < 1 / 50)
  have h4 : cbSlope ((10 : ℝ) ^ (2 / 5 : ℝ) / re) 0 (1 / 50) ≤ 200 := by
    have hd := pk_slope hre (by norm_num : (0 : ℝ) < 1 / 50)
    generalize (10 : ℝ) ^ (2 / 5 : ℝ) / re = a at *
    unfold cbSlope
    have e : 2 / log 10 * (a / (2 * (1 / 50) * (a + 0 * √(1 / 50)))) = 50 / log 10 := by
      rw [zero_mul, add_zero]; field_simp
    rw [e]
    have k1 : 50 / log 10 ≤ 22 := by rw [div_le_iff₀ (by linarith)]; linarith
    have k2 : 1 / (2 * (1 / 50) * √(1 / 50 : ℝ)) ≤ 177 := by
      rw [div_le_iff₀ (by positivity)]; linarith
    linarith
  have : 1 / 50 ≤ pkFun re (1 / 50) / cbSlope ((10 : ℝ) ^ (2 / 5 : ℝ) / re) 0 (1 / 50) := by
    rw [le_div_iff₀ hsl]; linarith
  rw [zero_sub, neg_div]
  linarith

/-- The run of the iteration of the law of Prandtl and v. Kármán. -/
theorem prandtl_rate {re r : ℝ} (h6 : 10 ^ 6 ≤ re) (hr1 : 1 / 100000 ≤ r) (hlaw : Spec.SmoothLaw re r) :
    ∃ out j, newton (prandtlArgs re) 13 = some (.ok out) ∧ j ≤ 12 ∧ 1 / 100000 ≤ out.x ∧ out.x ≤ r ∧
      smoothLow (j + 1) * √r ≤ √out.x ∧
      (10 ^ 7 ≤ re → re ≤ 10 ^ 8 → √out.x ≤ smoothUp (j + 1) * √r) ∧
      (out.limit = true ↔ j = 12) := by
  have hre : 0 < re := lt_of_lt_of_le (by positivity) h6
  have hr0 : 0 < r := by linarith
  have hr12 := smooth_le h6 hr0 hlaw
  set a := (10 : ℝ) ^ (2 / 5 : ℝ) / re with hadef
  have ha : 0 < a := by positivity
  have hroot : cbFun a 0 r = 0 := by
    have := pk_cb hre hr0
    rw [smooth_law.1 hlaw] at this
    linarith
  set q := √r with hq
  have hq0 : 0 < q := Real.sqrt_pos.2 hr0
  have hq2 : q ^ 2 = r := Real.sq_sqrt hr0.le
  have hqc : 87 / 100 * q ≤ 1 / 10 := by
    have : q ≤ 11 / 100 := Real.sqrt_le_iff.2 ⟨by norm_num, by norm_num; linarith⟩
    linarith
  let U : ℕ → ℝ := fun i => if 10 ^ 7 ≤ re ∧ re ≤ 10 ^ 8 then smoothUp i else 1
  have hU : ∀ i, i ≤ 12 → 1 ≤ i → U i ≤ 1 ∧ 0 ≤ U (i + 1) ∧
      U i ^ 2 * (1 + 2 * relOf i * (1 - U i) * (1 + 1 / 10 * (1 - U i))) ≤ U (i + 1) ^ 2 := by
    intro i hi h1
    by_cases h : 10 ^ 7 ≤ re ∧ re ≤ 10 ^ 8
    · simp only [U, if_pos h]; exact smoothUp_step i hi h1
    · simp only [U, if_neg h]; norm_num
  let I : ℕ → ℝ → Prop := fun i x => (i = 0 → x = 1 / 50) ∧
    (1 ≤ i → 1 / 100000 ≤ x ∧ x ≤ r ∧ smoothLow i * q ≤ √x ∧ √x ≤ U i * q)
  have hpos : ∀ i x, I i x → 0 < x := by
    intro i x h
    rcases Nat.eq_zero_or_pos i with h0 | h0
    · rw [h.1 h0]; norm_num
    · have := (h.2 h0).1; linarith
  have inv := newtonLoop_invariant (prandtlArgs re) (pkFun re) (cbSlope a 0) I rfl
    (fun i x _ h => prandtlKarman_ok hre (hpos i x h))
    (fun i x _ h => ⟨pk_slope hre (hpos i x h), (cbSlope_pos ha le_rfl (hpos i x h)).ne'⟩)
    (fun i x hi h => by
      have hx0 := hpos i x h
      have e : x = √x ^ 2 := (Real.sq_sqrt hx0.le).symm
      have hp0 : 0 < √x := Real.sqrt_pos.2 hx0
      change I (i + 1) (clamp (1 / 100000) (2 / 10) (x + (0 - pkFun re x) / cbSlope a 0 x * relOf i))
      have ee : x + (0 - pkFun re x) / cbSlope a 0 x * relOf i = x + cbFun a 0 x / cbSlope a 0 x * relOf i := by
        rw [pk_cb hre hx0]; ring
      refine ⟨fun h0 => absurd h0 (Nat.succ_ne_zero i), fun _ => ?_⟩
      rcases Nat.eq_zero_or_pos i with h0 | h0
      · -- the first step
        have hx := h.1 h0
        subst h0
        have hrel : relOf 0 = 1 := by norm_num [relOf]
        have hright : x + cbFun a 0 x / cbSlope a 0 x ≤ r := by
          have := cb_step_right ha hq0 (p := √x) (Real.sqrt_le_sqrt (by rw [hx]; linarith)) (by rw [hq2]; exact hroot)
          rw [← e, hq2] at this
          exact this
        rw [ee, hrel, mul_one]
        have hc : 1 / 100000 ≤ clamp (1 / 100000) (2 / 10) (x + cbFun a 0 x / cbSlope a 0 x) ∧
            clamp (1 / 100000) (2 / 10) (x + cbFun a 0 x / cbSlope a 0 x) ≤ r := by
          refine ⟨(clamp_mem _ _ _ (by norm_num)).1, ?_⟩
          unfold clamp
          dsimp only
          split_ifs <;> linarith
        refine ⟨hc.1, hc.2, ?_, ?_⟩
        · apply Real.le_sqrt_of_sq_le
          rw [mul_pow, hq2]
          refine le_trans ?_ hc.1
          simp only [smoothLow]
          linarith
        · by_cases hre7 : 10 ^ 7 ≤ re ∧ re ≤ 10 ^ 8
          · have h59 := smooth_ge hre hre7.2 hr0 hlaw
            have hf := smooth_first hre7.1
            rw [← hadef] at hf
            have hcl : clamp (1 / 100000) (2 / 10) (x + cbFun a 0 x / cbSlope a 0 x) = 1 / 100000 := by
              have hle : x + cbFun a 0 x / cbSlope a 0 x < 1 / 100000 := by
                have : cbFun a 0 x = 0 - pkFun re x := by rw [pk_cb hre hx0]; ring
                rw [this, hx]; linarith
              unfold clamp
              dsimp only
              rw [if_pos hle, if_neg (by norm_num)]
            rw [hcl]
            simp only [U, if_pos hre7]
            refine Real.sqrt_le_iff.2 ⟨by simp only [smoothUp]; positivity, ?_⟩
            rw [mul_pow, hq2]
            simp only [smoothUp]
            linarith
          · simp only [U, if_neg hre7, one_mul]
            exact Real.sqrt_le_sqrt hc.2
      · obtain ⟨h1, h2, h3, h4⟩ := h.2 h0
        obtain ⟨l1, l2, l3⟩ := smoothLow_step i hi h0
        obtain ⟨u1, u2, u3⟩ := hU i hi h0
        obtain ⟨b1, b2, b3, b4⟩ := bound_step (a := a) (b := 0) (p := √x) (q := q) (d := cbSlope a 0 x) (k := 1)
          (c := 1 / 10) (lo := smoothLow i) (hi := U i) (lo' := smoothLow (i + 1)) (hi' := U (i + 1)) (i := i)
          ha le_rfl hp0 (Real.sqrt_le_sqrt h2) (by rw [hq2]; exact hroot) (by norm_num) (by norm_num)
          (by rw [← e]) (by rw [← e, one_mul]) hqc (by norm_num) l1 h3 h4 u1 l2 u2 l3 u3
        rw [← e, hq2] at b2
        rw [← e] at b1 b3 b4
        rw [ee, clamp_id (by linarith) (by linarith)]
        exact ⟨by linarith, b2, b3, b4⟩)
    13 0 (1 / 50) (by norm_num) ⟨fun _ => rfl, fun h => absurd h (by norm_num)⟩
  have e1 : limOf 0 = 10 := rfl
  have e2 : relOf 0 = 1 := by norm_num [relOf]
  have e3 : (prandtlArgs re).val0 = 1 / 50 := by norm_num [prandtlArgs]
  rw [e1, e2] at inv
  push_cast at inv
  rcases inv with h | ⟨out, j, h, -, hj, hI, hI', -, hlim, -⟩
  · obtain ⟨o, ho⟩ := C08_newton_terminates (prandtlArgs re)
    have := ho.1 13 le_rfl
    unfold newton at this
    rw [e3, show (prandtlArgs re).maxIter = 10 from rfl] at this
    rw [h] at this
    cases this
  · obtain ⟨k1, k2, k3, k4⟩ := hI'.2 (by omega)
    refine ⟨out, j, ?_, hj, k1, k2, k3, ?_, hlim⟩
    · unfold newton
      rw [e3, show (prandtlArgs re).maxIter = 10 from rfl]
      exact h
    · intro h7 h8
      simp only [U, if_pos (And.intro h7 h8)] at k4
      exact k4

/-- C80, smooth pipes at high Reynolds numbers, without assumption about the tolerance: the returned value is the
solution of the law of Prandtl and v. Kármán but for an error of at most 0.5 %, and never above it. -/
theorem C80_smooth (re ks d : ℝ) (h6 : 10 ^ 6 ≤ re) (h12 : re ≤ 10 ^ 12) (hd : 0 < d) (h : re * ks / d < 65) :
    ∃ f r, darcyFriction re ks d = .ok f ∧ 0 < r ∧ Spec.SmoothLaw re r ∧
      (∀ r', 0 < r' → Spec.SmoothLaw re r' → r' = r) ∧ 995 / 1000 * r ≤ f ∧ f ≤ r := by
  obtain ⟨r, hlaw, huniq, out, ho, hf, hx0, -, htol⟩ := C80_smooth_partial re ks d h6 h12 hd h
  obtain ⟨r0, hr01, -, hlaw0⟩ := smooth_root h6 h12
  have : r0 = r := huniq r0 (by linarith) hlaw0
  subst this
  have hr0 : 0 < r0 := by linarith
  obtain ⟨out', j, ho', hj, hxlo, hle, hlow, -, hlim⟩ := prandtl_rate h6 hr01 hlaw
  have : out' = out := by
    rw [ho] at ho'
    injection ho' with h1
    injection h1 with h2
    exact h2.symm
  subst this
  refine ⟨out'.x, r0, hf, hr0, hlaw, huniq, ?_, hle⟩
  by_cases hl : out'.limit = true
  · rw [hlim.1 hl] at hlow
    have h1 : (smoothLow 13 * √r0) ^ 2 ≤ √out'.x ^ 2 := by
      apply pow_le_pow_left₀ _ hlow
      simp only [smoothLow]; positivity
    rw [mul_pow, Real.sq_sqrt hr0.le, Real.sq_sqrt (by linarith)] at h1
    simp only [smoothLow] at h1
    norm_num at h1
    linarith
  · have := htol (by simpa using hl)
    rw [abs_le] at this
    have := this.1
    norm_num at this
    linarith

/-- C80 refuted for smooth pipes: at Reynolds numbers between `10^7` and `10^8` the first step leads to the lower limit
of values, from which the iteration does not get to the solution in its thirteen passes: the friction factor returned
is too small by more than 0.07 %. -/
theorem C80_smooth_false (re ks d : ℝ) (h7 : 10 ^ 7 ≤ re) (h8 : re ≤ 10 ^ 8) (hd : 0 < d) (h : re * ks / d < 65) :
    ∃ f r, darcyFriction re ks d = .ok f ∧ 0 < r ∧ Spec.SmoothLaw re r ∧ f ≤ (1 - 7 / 10000) * r := by
  have h6 : (10 : ℝ) ^ 6 ≤ re := le_trans (by norm_num) h7
  have h12 : re ≤ 10 ^ 12 := h8.trans (by norm_num)
  obtain ⟨r, hlaw, huniq, out, ho, hf, hx0, -, htol⟩ := C80_smooth_partial re ks d h6 h12 hd h
  obtain ⟨r0, hr01, -, hlaw0⟩ := smooth_root h6 h12
  have : r0 = r := huniq r0 (by linarith) hlaw0
  subst this
  have hr0 : 0 < r0 := by linarith
  obtain ⟨out', j, ho', hj, hxlo, hle, -, hup, hlim⟩ := prandtl_rate h6 hr01 hlaw
  have : out' = out := by
    rw [ho] at ho'
    injection ho' with h1
    injection h1 with h2
    exact h2.symm
  subst this
  refine ⟨out'.x, r0, hf, hr0, hlaw, ?_⟩
  have hU : smoothUp (j + 1) ≤ 4998027 / 5000000 := by
    interval_cases j <;> norm_num [smoothUp]
  have h3 : √out'.x ≤ 4998027 / 5000000 * √r0 :=
    (hup h7 h8).trans (mul_le_mul_of_nonneg_right hU (Real.sqrt_nonneg _))
  have h4 : √out'.x ^ 2 ≤ (4998027 / 5000000 * √r0) ^ 2 := pow_le_pow_left₀ (Real.sqrt_nonneg _) h3 2
  rw [mul_pow, Real.sq_sqrt hr0.le, Real.sq_sqrt (by linarith)] at h4
  norm_num at h4 ⊢
  linarith

/-- The hypotheses of `C80_rough` and `C80_rough_tolerance_false` are met: a pipe of 0.1 m with a roughness of 1 mm. -/
example : ∃ f r, darcyFriction 100000 (1 / 1000) (1 / 10) = .ok f ∧ 0 < r ∧
    Spec.ColebrookLaw 100000 (1 / 1000) (1 / 10) r ∧
    (∀ r', 0 < r' → Spec.ColebrookLaw 100000 (1 / 1000) (1 / 10) r' → r' = r) ∧ 996 / 1000 * r ≤ f ∧ f ≤ r :=
  C80_rough _ _ _ (by norm_num) (by norm_num) (by norm_num) (by norm_num) (by norm_num) (by norm_num)

/-- The hypotheses of `C80_smooth` and `C80_smooth_false` are met. -/
example : ∃ f r, darcyFriction (2 * 10 ^ 7) 0 1 = .ok f ∧ 0 < r ∧ Spec.SmoothLaw (2 * 10 ^ 7) r ∧
    f ≤ (1 - 7 / 10000) * r :=
  C80_smooth_false _ _ _ (by norm_num) (by norm_num) (by norm_num) (by norm_num)

/-- The same pipe has a friction factor above 0.02, so that the tolerance is not met. -/
example : ∃ out, newton (colebrookArgs 100000 (1 / 1000) (1 / 10)) 13 = some (.ok out) ∧ out.limit = true := by
  obtain ⟨r, hr0, hr2, hlaw, -⟩ := (C80_rough_partial 100000 (1 / 1000) (1 / 10) (by norm_num) (by norm_num) (by norm_num)
    (by norm_num) (by norm_num)).2 (by norm_num)
  refine C80_rough_tolerance_false _ _ _ r (by norm_num) (by norm_num) (by norm_num) (by norm_num) ?_ hr2 hlaw
  by_contra hc
  push Not at hc
  have h1 := cbFun_strictAnti (a := 251 / 100 / 100000) (b := 1 / 1000 / (371 / 100 * (1 / 10))) (by norm_num)
    (by norm_num) hr0 hc
  rw [colebrook_law.1 hlaw] at h1
  have hs : √(1 / 50 : ℝ) ≤ 142 / 1000 := Real.sqrt_le_iff.2 ⟨by norm_num, by norm_num⟩
  have hs0 : 0 < √(1 / 50 : ℝ) := Real.sqrt_pos.2 (by norm_num)
  have h2 : 7 ≤ 1 / √(1 / 50 : ℝ) := by rw [le_div_iff₀ hs0]; linarith
  have h3 : (-3 : ℝ) ≤ logb 10 (cbArg (251 / 100 / 100000) (1 / 1000 / (371 / 100 * (1 / 10))) (1 / 50)) := by
    rw [Real.le_logb_iff_rpow_le (by norm_num) (cbArg_pos (by norm_num) (by norm_num) (by norm_num)),
      show (-3 : ℝ) = ((-3 : ℤ) : ℝ) by norm_num, Real.rpow_intCast]
    unfold cbArg
    have : 0 ≤ 251 / 100 / 100000 / √(1 / 50 : ℝ) := by positivity
    have h4 : (10 : ℝ) ^ (-3 : ℤ) ≤ 1 / 1000 / (371 / 100 * (1 / 10)) := by norm_num
    linarith
  unfold cbFun at h1
  linarith

end Tespy
