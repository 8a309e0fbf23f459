import Mathlib.Tactic.Ring
import Mathlib.Tactic.FieldSimp
import Mathlib.Tactic.Linarith
import Mathlib.Tactic.Positivity
import Mathlib.Tactic.IntervalCases
import Mathlib.Algebra.Order.Field.Rat
import Verif.Lemmas.SearchSorted
import Verif.Spec.Lines
/-
C04 - C06: characteristic lines. All theorems hold for lines of any length, over
any linearly ordered field.
-/
namespace Tespy
open Tespy.Spec
variable {K : Type _} [Field K] [LinearOrder K] [IsStrictOrderedRing K]

/-- What a user has to provide: equally many x and y, x strictly ascending. -/
structure CharLine.Valid (c : CharLine K) : Prop where
  len : c.y.length = c.x.length
  sorted : c.x.Pairwise (· < ·)

theorem CharLine.Valid.le {c : CharLine K} (h : c.Valid) : c.x.Pairwise (· ≤ ·) :=
  h.sorted.imp (fun h => le_of_lt h)

theorem CharLine.Valid.lt_of_lt {c : CharLine K} (h : c.Valid) {i j : ℕ} (hij : i < j)
    (hj : j < c.x.length) : c.x[i] < c.x[j] :=
  List.pairwise_iff_getElem.mp h.sorted i j (by omega) hj hij

/-- the interpolation formula at an inner index -/
theorem interpAt_eq (x y : List K) (i : ℕ) (v : K) (hi : i + 1 < x.length)
    (hy : i + 1 < y.length) (hne : x[i] < x[i+1]) :
    interpAt x y ((i : Int) + 1) v = .ok (lineThrough x[i] y[i] x[i+1] y[i+1] v) := by
  have e1 : ((i : Int) + 1 - 1) = (i : Int) := by omega
  have e2 : ((i : Int) + 1) = ((i+1 : ℕ) : Int) := by push_cast; rfl
  have hn : x[i+1] - x[i] ≠ 0 := sub_ne_zero.mpr hne.ne'
  simp only [interpAt, e1]
  rw [pyGet_nat _ _ (by omega), e2, pyGet_nat _ _ hi, pyGet_nat _ _ (by omega), pyGet_nat _ _ hy]
  simp only [bind, Except.bind, if_neg hn, pure, Except.pure, lineThrough, Except.ok.injEq]
  ring

theorem interpAt_neg_one (x y : List K) (v : K) (hi : 2 ≤ x.length)
    (hy : y.length = x.length) :
    interpAt x y (-1) v = interpAt x y (((x.length - 2 : ℕ) : Int) + 1) v := by
  have e1 : (((x.length - 2 : ℕ) : Int) + 1) = ((x.length - 1 : ℕ) : Int) := by omega
  have e2 : (((x.length - 1 : ℕ) : Int) - 1) = ((x.length - 2 : ℕ) : Int) := by omega
  have e3 : ((-1 : Int) - 1) = -((2 : ℕ) : Int) := by norm_num
  simp only [interpAt, e1, e2, e3]
  rw [pyGet_neg x 2 (by omega) hi, pyGet_neg y 2 (by omega) (by omega), pyGet_neg_one x (by omega),
    pyGet_neg_one y (by omega), pyGet_nat x _ (by omega), pyGet_nat x _ (by omega),
    pyGet_nat y _ (by omega), pyGet_nat y _ (by omega)]
  simp [hy]

/-- Position of the argument, cases of `evaluate`. -/
theorem CharLine.evaluate_inner (c : CharLine K) (h : c.Valid) (i : ℕ) (v : K)
    (hi : i + 1 < c.x.length) (h1 : c.x[i] < v) (h2 : v ≤ c.x[i+1]) :
    c.evaluate v = .ok (lineThrough c.x[i] (c.y[i]'(by rw [h.len]; omega)) c.x[i+1]
      (c.y[i+1]'(by rw [h.len]; omega)) v) := by
  have hs := searchsorted_le c.x v
  have a := (lt_searchsorted_iff c.x v h.le i (by omega)).mpr h1
  have b : ¬ (i + 1 < searchsorted c.x v) := by
    rw [lt_searchsorted_iff c.x v h.le (i+1) hi]; exact not_lt.mpr h2
  have e : searchsorted c.x v = i + 1 := by omega
  have hlt := h.lt_of_lt (i := i) (j := i+1) (by omega) hi
  have := interpAt_eq c.x c.y i v hi (by rw [h.len]; exact hi) hlt
  unfold CharLine.evaluate
  simp only [e]
  rw [if_neg (by omega), if_neg (by omega)]
  push_cast
  exact this

theorem CharLine.evaluate_left (c : CharLine K) (h : c.Valid) (v : K)
    (hn : 0 < c.x.length) (h1 : v ≤ c.x[0]) :
    c.evaluate v = if c.extrapolate then interpAt c.x c.y 1 v else pyGet c.y 0 := by
  have b : ¬ (0 < searchsorted c.x v) := by
    rw [lt_searchsorted_iff c.x v h.le 0 hn]; exact not_lt.mpr h1
  have e : searchsorted c.x v = 0 := by omega
  unfold CharLine.evaluate
  simp only [e]
  rw [if_neg (by omega)]; simp

theorem CharLine.evaluate_right (c : CharLine K) (h : c.Valid) (v : K)
    (hn : 0 < c.x.length) (h1 : c.x[c.x.length - 1] < v) :
    c.evaluate v = if c.extrapolate then interpAt c.x c.y (-1) v else pyGet c.y (-1) := by
  have b := (lt_searchsorted_iff c.x v h.le (c.x.length - 1) (by omega)).mpr h1
  have hs := searchsorted_le c.x v
  have e : searchsorted c.x v = c.x.length := by omega
  unfold CharLine.evaluate
  simp [e]

/-- every real number is left of the domain, right of it or in one half-open segment -/
theorem CharLine.locate (c : CharLine K) (v : K) (hn : 0 < c.x.length) :
    v ≤ c.x[0] ∨ c.x[c.x.length - 1] < v ∨
    ∃ i, ∃ hi : i + 1 < c.x.length, c.x[i] < v ∧ v ≤ c.x[i+1] := by
  by_cases h0 : v ≤ c.x[0]
  · exact Or.inl h0
  by_cases h1 : c.x[c.x.length - 1] < v
  · exact Or.inr (Or.inl h1)
  refine Or.inr (Or.inr ?_)
  have : ∀ k, (hk : k < c.x.length) → v ≤ c.x[k] →
      ∃ i, ∃ hi : i + 1 < c.x.length, c.x[i] < v ∧ v ≤ c.x[i+1] := by
    intro k
    induction k with
    | zero => intro hk hv; exact absurd hv h0
    | succ k ih =>
      intro hk hv
      by_cases hvk : v ≤ c.x[k]
      · exact ih (by omega) hvk
      · exact ⟨k, hk, not_le.mp hvk, hv⟩
  exact this (c.x.length - 1) (by omega) (not_lt.mp h1)

/-- C04: at a support point `evaluate` returns exactly the given value (lines with at
least two points, with or without extrapolation). -/
theorem C04_support_points (c : CharLine K) (h : c.Valid) (hn : 2 ≤ c.x.length) (i : ℕ)
    (hi : i < c.x.length) : c.evaluate c.x[i] = .ok (c.y[i]'(by rw [h.len]; exact hi)) := by
  cases i with
  | zero =>
    rw [c.evaluate_left h _ (by omega) (le_refl _)]
    split
    · have := interpAt_eq c.x c.y 0 c.x[0] (by omega) (by rw [h.len]; omega)
        (h.lt_of_lt (by omega) (by omega))
      simp only [Int.ofNat_zero, Nat.cast_zero, zero_add] at this
      rw [this]; simp [lineThrough]
    · rw [pyGet_zero _ (by rw [h.len]; omega)]
  | succ i =>
    have hlt := h.lt_of_lt (i := i) (j := i+1) (by omega) hi
    rw [c.evaluate_inner h i _ hi hlt (le_refl _)]
    have hne : c.x[i+1] - c.x[i] ≠ 0 := sub_ne_zero.mpr hlt.ne'
    simp only [lineThrough, Except.ok.injEq]
    field_simp; ring

/-- C04: between two neighbouring support points `evaluate` is the straight line through
them. -/
theorem C04_piecewise_linear (c : CharLine K) (h : c.Valid) (i : ℕ) (v : K)
    (hi : i + 1 < c.x.length) (h1 : c.x[i] ≤ v) (h2 : v ≤ c.x[i+1]) :
    c.evaluate v = .ok (lineThrough c.x[i] (c.y[i]'(by rw [h.len]; omega)) c.x[i+1]
      (c.y[i+1]'(by rw [h.len]; omega)) v) := by
  rcases h1.lt_or_eq with h1 | h1
  · exact c.evaluate_inner h i v hi h1 h2
  · subst h1
    rw [C04_support_points c h (by omega) i (by omega)]
    simp [lineThrough]

/-- C05: left of the domain the first, right of it the last value is returned. -/
theorem C05_constant_outside (c : CharLine K) (h : c.Valid) (hne : 0 < c.x.length)
    (hex : c.extrapolate = false) (v : K) :
    (v ≤ c.x[0] → c.evaluate v = .ok (c.y[0]'(by rw [h.len]; exact hne))) ∧
    (c.x[c.x.length - 1] ≤ v →
      c.evaluate v = .ok (c.y[c.y.length - 1]'(by rw [h.len]; omega))) := by
  have hl := h.len
  constructor
  · intro hv
    rw [c.evaluate_left h v hne hv]
    simp [hex, pyGet_zero c.y (by omega)]
  · intro hv
    rcases hv.lt_or_eq with hv | hv
    · rw [c.evaluate_right h v hne hv]
      simp [hex, pyGet_neg_one c.y (by omega)]
    · subst hv
      by_cases h2 : 2 ≤ c.x.length
      · rw [C04_support_points c h h2]; simp [hl]
      · have h1 : c.x.length = 1 := by omega
        rw [c.evaluate_left h _ hne (by simp [h1])]
        simp [hex, hl, h1, pyGet_zero c.y (by omega)]

theorem lineThrough_mem (x0 y0 x1 y1 v lo hi : K) (hx : x0 < x1) (h1 : x0 ≤ v) (h2 : v ≤ x1)
    (a1 : lo ≤ y0) (a2 : y0 ≤ hi) (b1 : lo ≤ y1) (b2 : y1 ≤ hi) :
    lo ≤ lineThrough x0 y0 x1 y1 v ∧ lineThrough x0 y0 x1 y1 v ≤ hi := by
  have hd : 0 < x1 - x0 := sub_pos.mpr hx
  have e : lineThrough x0 y0 x1 y1 v = (y0 * (x1 - v) + y1 * (v - x0)) / (x1 - x0) := by
    unfold lineThrough; field_simp; ring
  rw [e, le_div_iff₀ hd, div_le_iff₀ hd]
  constructor
  · nlinarith [mul_nonneg (sub_nonneg.mpr a1) (sub_nonneg.mpr h2),
      mul_nonneg (sub_nonneg.mpr b1) (sub_nonneg.mpr h1)]
  · nlinarith [mul_nonneg (sub_nonneg.mpr a2) (sub_nonneg.mpr h2),
      mul_nonneg (sub_nonneg.mpr b2) (sub_nonneg.mpr h1)]

/-- C05: without extrapolation the result exists for every argument and lies within all
bounds of the y values. -/
theorem C05_bounded (c : CharLine K) (h : c.Valid) (hne : 0 < c.x.length)
    (hex : c.extrapolate = false) (lo hi : K) (hb : ∀ t ∈ c.y, lo ≤ t ∧ t ≤ hi) (v : K) :
    ∃ r, c.evaluate v = .ok r ∧ lo ≤ r ∧ r ≤ hi := by
  have hl := h.len
  have hb' : ∀ i, (hi' : i < c.y.length) → lo ≤ c.y[i] ∧ c.y[i] ≤ hi :=
    fun i hi' => hb _ (List.getElem_mem _)
  rcases c.locate v hne with hv | hv | ⟨i, hi', h1, h2⟩
  · exact ⟨_, (C05_constant_outside c h hne hex v).1 hv, hb' _ _⟩
  · exact ⟨_, (C05_constant_outside c h hne hex v).2 hv.le, hb' _ _⟩
  · exact ⟨_, c.evaluate_inner h i v hi' h1 h2,
      lineThrough_mem _ _ _ _ _ _ _ (h.lt_of_lt (by omega) hi') h1.le h2
        (hb' _ _).1 (hb' _ _).2 (hb' _ _).1 (hb' _ _).2⟩

theorem lineThrough_mono (x0 y0 x1 y1 v w : K) (hx : x0 < x1) (hy : y0 ≤ y1) (hvw : v ≤ w) :
    lineThrough x0 y0 x1 y1 v ≤ lineThrough x0 y0 x1 y1 w := by
  unfold lineThrough
  have : 0 ≤ (y1 - y0) / (x1 - x0) := div_nonneg (sub_nonneg.mpr hy) (sub_pos.mpr hx).le
  nlinarith [mul_le_mul_of_nonneg_left (sub_le_sub_right hvw x0) this]

/-- A value at `v` left of support point `k` is not above `y[k]` (non-decreasing y). -/
theorem CharLine.le_support (c : CharLine K) (h : c.Valid) (hex : c.extrapolate = false)
    (hy : c.y.Pairwise (· ≤ ·)) (k : ℕ) (hk : k < c.x.length) (v r : K)
    (hr : c.evaluate v = .ok r) :
    (v ≤ c.x[k] → r ≤ c.y[k]'(by rw [h.len]; exact hk)) ∧
    (c.x[k] ≤ v → c.y[k]'(by rw [h.len]; exact hk) ≤ r) := by
  have hl := h.len
  have ym : ∀ i j, (hij : i ≤ j) → (hj : j < c.y.length) → c.y[i] ≤ c.y[j] := by
    intro i j hij hj
    rcases hij.lt_or_eq with hij | rfl
    · exact List.pairwise_iff_getElem.mp hy i j (by omega) hj hij
    · exact le_refl _
  have xm : ∀ i j, (hij : i ≤ j) → (hj : j < c.x.length) → c.x[i] ≤ c.x[j] := by
    intro i j hij hj
    rcases hij.lt_or_eq with hij | rfl
    · exact (h.lt_of_lt hij hj).le
    · exact le_refl _
  have hne : 0 < c.x.length := by omega
  rcases c.locate v hne with hv | hv | ⟨i, hi', h1, h2⟩
  · rw [(C05_constant_outside c h hne hex v).1 hv] at hr
    simp only [Except.ok.injEq] at hr; subst hr
    refine ⟨fun _ => ym _ _ (by omega) _, fun hkv => ?_⟩
    rcases Nat.eq_zero_or_pos k with rfl | hk0
    · exact le_refl _
    · exact absurd (lt_of_lt_of_le (h.lt_of_lt hk0 hk) hkv) (not_lt.mpr hv)
  · rw [(C05_constant_outside c h hne hex v).2 hv.le] at hr
    simp only [Except.ok.injEq] at hr; subst hr
    refine ⟨fun hvk => ?_, fun _ => ym _ _ (by omega) _⟩
    exact absurd (lt_of_lt_of_le hv hvk) (not_lt.mpr (xm _ _ (by omega) _))
  · rw [c.evaluate_inner h i v hi' h1 h2] at hr
    simp only [Except.ok.injEq] at hr; subst hr
    have hmem := lineThrough_mem c.x[i] c.y[i] c.x[i+1] c.y[i+1] v c.y[i] c.y[i+1]
      (h.lt_of_lt (by omega) hi') h1.le h2 (le_refl _) (ym _ _ (by omega) (by omega)) (ym _ _ (by omega) (by omega)) (le_refl _)
    constructor
    · intro hvk
      have : i < k := by
        by_contra hc
        exact absurd (lt_of_lt_of_le h1 hvk) (not_lt.mpr (xm k i (by omega) (by omega)))
      exact hmem.2.trans (ym _ _ (by omega) _)
    · intro hkv
      by_cases hki : k ≤ i
      · exact (ym _ _ hki _).trans hmem.1
      · have hle : c.x[i+1] ≤ c.x[k] := xm _ _ (by omega) hk
        have hv : v = c.x[i+1] := le_antisymm h2 (hle.trans hkv)
        have hk' : k = i + 1 := by
          by_contra hc
          have := h.lt_of_lt (i := i+1) (j := k) (by omega) hk
          exact absurd (lt_of_lt_of_le this hkv) (not_lt.mpr h2)
        subst hk'
        have hd : c.x[i+1] - c.x[i] ≠ 0 := sub_ne_zero.mpr (h.lt_of_lt (by omega) hi').ne'
        rw [hv]; unfold lineThrough; field_simp; ring_nf; exact le_refl _

/-- C05: non-decreasing y makes `evaluate` non-decreasing on the whole line. -/
theorem C05_monotone (c : CharLine K) (h : c.Valid) (hne : 0 < c.x.length)
    (hex : c.extrapolate = false) (hy : c.y.Pairwise (· ≤ ·)) (v w r s : K) (hvw : v ≤ w)
    (hr : c.evaluate v = .ok r) (hs : c.evaluate w = .ok s) : r ≤ s := by
  have hl := h.len
  rcases c.locate v hne with hv | hv | ⟨i, hi', h1, h2⟩
  · rw [(C05_constant_outside c h hne hex v).1 hv] at hr
    simp only [Except.ok.injEq] at hr; subst hr
    by_cases hw : c.x[0] ≤ w
    · exact (c.le_support h hex hy 0 hne w s hs).2 hw
    · rw [(C05_constant_outside c h hne hex w).1 (not_le.mp hw).le] at hs
      simp only [Except.ok.injEq] at hs; subst hs; exact le_refl _
  · rw [(C05_constant_outside c h hne hex v).2 hv.le] at hr
    rw [(C05_constant_outside c h hne hex w).2 (hv.le.trans hvw)] at hs
    simp only [Except.ok.injEq] at hr hs; rw [← hr, ← hs]
  · by_cases hw : w ≤ c.x[i+1]
    · rw [c.evaluate_inner h i v hi' h1 h2] at hr
      rw [c.evaluate_inner h i w hi' (lt_of_lt_of_le h1 hvw) hw] at hs
      simp only [Except.ok.injEq] at hr hs; subst hr hs
      exact lineThrough_mono _ _ _ _ _ _ (h.lt_of_lt (by omega) hi')
        (List.pairwise_iff_getElem.mp hy i (i+1) (by omega) (by omega) (by omega)) hvw
    · exact ((c.le_support h hex hy (i+1) hi' v r hr).1 h2).trans
        ((c.le_support h hex hy (i+1) hi' w s hs).2 (not_le.mp hw).le)

/-- C06: with extrapolation the first and the last segment are continued. -/
theorem C06_extrapolation (c : CharLine K) (h : c.Valid) (hn : 2 ≤ c.x.length)
    (hex : c.extrapolate = true) (v : K) :
    (v ≤ c.x[1] → c.evaluate v = .ok (lineThrough c.x[0] (c.y[0]'(by rw [h.len]; omega))
        c.x[1] (c.y[1]'(by rw [h.len]; omega)) v)) ∧
    (c.x[c.x.length - 2] ≤ v → c.evaluate v = .ok (lineThrough c.x[c.x.length - 2]
        (c.y[c.x.length - 2]'(by rw [h.len]; omega))
        c.x[c.x.length - 1] (c.y[c.x.length - 1]'(by rw [h.len]; omega)) v)) := by
  have hl := h.len
  constructor
  · intro hv
    by_cases h0 : v ≤ c.x[0]
    · rw [c.evaluate_left h v (by omega) h0, hex, if_pos rfl]
      have := interpAt_eq c.x c.y 0 v (by omega) (by omega) (h.lt_of_lt (by omega) (by omega))
      simpa using this
    · exact c.evaluate_inner h 0 v (by omega) (not_le.mp h0) hv
  · intro hv
    have e : c.x.length - 2 + 1 = c.x.length - 1 := by omega
    by_cases h0 : v ≤ c.x[c.x.length - 1]
    · have := C04_piecewise_linear c h (c.x.length - 2) v (by omega) hv (by simpa [e] using h0)
      simpa [e] using this
    · rw [c.evaluate_right h v (by omega) (not_le.mp h0), hex, if_pos rfl,
        interpAt_neg_one c.x c.y v hn hl]
      have := interpAt_eq c.x c.y (c.x.length - 2) v (by omega) (by omega)
        (h.lt_of_lt (by omega) (by omega))
      simpa [e] using this

omit [IsStrictOrderedRing K] in
/-- C06: a warning is issued exactly for arguments strictly outside of the domain. -/
theorem C06_domain_errors (c : CharLine K) (hn : 2 ≤ c.x.length) (v : K) :
    ∃ w, c.getDomainErrors v = .ok w ∧
      (w = none ↔ c.x[0] ≤ v ∧ v ≤ c.x[c.x.length - 1]) ∧
      (∀ m, w = some (.above m) → m = c.x[c.x.length - 1] ∧ m < v) ∧
      (∀ m, w = some (.below m) → v < c.x[0]) := by
  unfold CharLine.getDomainErrors
  rw [pyGet_neg_one _ (by omega), pyGet_zero _ (by omega)]
  have h1 : pyGet c.x 1 = .ok c.x[1] := by have := pyGet_nat c.x 1 (by omega); simpa using this
  rw [h1]
  simp only [bind, Except.bind]
  split
  · rename_i h
    refine ⟨_, rfl, ?_, ?_, ?_⟩
    · simp [h]
    · rintro m hm; simp at hm; subst hm; exact ⟨rfl, h⟩
    · rintro m hm; simp at hm
  · split
    · rename_i h h'
      refine ⟨_, rfl, ?_, ?_, ?_⟩
      · simp [h']
      · rintro m hm; simp at hm
      · rintro m hm; exact h'
    · rename_i h h'
      exact ⟨_, rfl, by simpa using ⟨not_lt.mp h', not_lt.mp h⟩, by simp, by simp⟩

/-- C06, disagreement: the minimum named in the warning is the second support point,
not the lower end of the domain (line 146). -/
theorem C06_warning_names_second_point :
    (⟨[0, 1, 2], [0, 1, 2], false⟩ : CharLine ℚ).getDomainErrors (-1) = .ok (some (.below 1)) := by
  decide +kernel

-- non-vacuity: a line with three points, evaluated inside and outside
example : (⟨[0, 1, 3], [2, 4, 8], true⟩ : CharLine ℚ).Valid := ⟨rfl, by decide +kernel⟩
example : (⟨[0, 1, 3], [2, 4, 9], true⟩ : CharLine ℚ).evaluate 5 = .ok 14 := by decide +kernel
example : (⟨[0, 1, 3], [2, 4, 9], false⟩ : CharLine ℚ).evaluate 5 = .ok 9 := by decide +kernel
example : (⟨[0, 1, 3], [2, 4, 9], false⟩ : CharLine ℚ).evaluate 2 = .ok (13/2) := by decide +kernel

end Tespy
