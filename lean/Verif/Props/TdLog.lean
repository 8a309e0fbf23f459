import Verif.Model.HeatTransfer
import Mathlib.Tactic.Linarith
import Mathlib.Tactic.Positivity
import Mathlib.Tactic.FieldSimp
import Mathlib.Tactic.NormNum

/-!
C40: logarithmic temperature differences.
-/
namespace Tespy

/-- Specification: the logarithmic mean of two positive differences. -/
noncomputable def Spec.logMean (a b : ℝ) : ℝ :=
  if a = b then a else (a - b) / (Real.log a - Real.log b)

theorem log_quot_ne {a b : ℝ} (ha : 0 < a) (hb : 0 < b) (h : a ≠ b) : Real.log (a / b) ≠ 0 := by
  rw [Real.log_div ha.ne' hb.ne']
  intro h0
  exact h (Real.log_injOn_pos (Set.mem_Ioi.2 ha) (Set.mem_Ioi.2 hb) (by linarith))

theorem Spec.logMean_comm (a b : ℝ) : Spec.logMean a b = Spec.logMean b a := by
  unfold Spec.logMean
  by_cases h : a = b
  · simp [h]
  · rw [if_neg h, if_neg (Ne.symm h), ← neg_sub b a, ← neg_sub (Real.log b), neg_div_neg_eq]

theorem logMean_lt_aux {a b : ℝ} (ha : 0 < a) (hab : a < b) :
    a < (b - a) / (Real.log b - Real.log a) ∧ (b - a) / (Real.log b - Real.log a) < b := by
  have hb : 0 < b := ha.trans hab
  have hl : 0 < Real.log b - Real.log a := sub_pos.2 (Real.log_lt_log ha hab)
  have h1 : Real.log b - Real.log a < b / a - 1 := by
    rw [← Real.log_div hb.ne' ha.ne']
    exact Real.log_lt_sub_one_of_pos (div_pos hb ha)
      (fun h => by rw [div_eq_one_iff_eq ha.ne'] at h; linarith)
  have h2 : Real.log a - Real.log b < a / b - 1 := by
    rw [← Real.log_div ha.ne' hb.ne']
    exact Real.log_lt_sub_one_of_pos (div_pos ha hb)
      (fun h => by rw [div_eq_one_iff_eq hb.ne'] at h; linarith)
  constructor
  · rw [lt_div_iff₀ hl]
    have : a * (Real.log b - Real.log a) < a * (b / a - 1) := mul_lt_mul_of_pos_left h1 ha
    have e : a * (b / a - 1) = b - a := by field_simp
    linarith
  · rw [div_lt_iff₀ hl]
    have : b * (Real.log a - Real.log b) < b * (a / b - 1) := mul_lt_mul_of_pos_left h2 hb
    have e : b * (a / b - 1) = a - b := by field_simp
    linarith

/-- The logarithmic mean lies between its arguments (strictly if they differ). -/
theorem Spec.logMean_between {a b : ℝ} (ha : 0 < a) (hb : 0 < b) :
    min a b ≤ Spec.logMean a b ∧ Spec.logMean a b ≤ max a b := by
  rcases lt_trichotomy a b with h | h | h
  · rw [min_eq_left h.le, max_eq_right h.le, Spec.logMean_comm]
    unfold Spec.logMean
    rw [if_neg h.ne']
    exact ⟨(logMean_lt_aux ha h).1.le, (logMean_lt_aux ha h).2.le⟩
  · subst h; simp [Spec.logMean]
  · rw [min_eq_right h.le, max_eq_left h.le]
    unfold Spec.logMean
    rw [if_neg h.ne']
    exact ⟨(logMean_lt_aux hb h).1.le, (logMean_lt_aux hb h).2.le⟩

theorem Spec.logMean_pos {a b : ℝ} (ha : 0 < a) (hb : 0 < b) : 0 < Spec.logMean a b :=
  lt_of_lt_of_le (lt_min ha hb) (Spec.logMean_between ha hb).1

theorem logQuot_pos {a b : ℝ} (ha : 0 < a) (hb : 0 < b) (h : a ≠ b) :
    logQuot a b = .ok (Spec.logMean a b) := by
  unfold logQuot Spec.logMean
  rw [if_neg hb.ne', if_neg (not_le.2 (div_pos ha hb)), if_neg (log_quot_ne ha hb h), if_neg h,
    Real.log_div ha.ne' hb.ne']

theorem tdLogOf_pos {u l : ℝ} (hu : 0 < u) (hl : 0 < l) :
    tdLogOf u l = .ok (Spec.logMean u l) := by
  unfold tdLogOf
  by_cases h : u = l
  · subst h; simp [Spec.logMean]
  · rw [if_neg h, logQuot_pos hl hu (Ne.symm h), Spec.logMean_comm]

/-- Terminal temperature differences after the adjustment: the true difference if it is positive,
otherwise the given positive replacement. -/
noncomputable def Spec.guarded (d repl : ℝ) : ℝ := if 0 < d then d else repl

theorem hexAdjust_diff (Ti1 Ti2 To1 To2 : ℝ) :
    (hexAdjust Ti1 Ti2 To1 To2).1 - (hexAdjust Ti1 Ti2 To1 To2).2.2.2
      = Spec.guarded (Ti1 - To2) (1 / 100) ∧
    (hexAdjust Ti1 Ti2 To1 To2).2.2.1 - (hexAdjust Ti1 Ti2 To1 To2).2.1
      = Spec.guarded (To1 - Ti2) (2 / 100) := by
  unfold hexAdjust Spec.guarded
  by_cases h1 : Ti1 ≤ To2
  · have h1' : ¬ 0 < Ti1 - To2 := by linarith
    have h2 : ¬ (To2 + 1 / 100 ≤ To2) := by norm_num
    by_cases h3 : To1 ≤ Ti2
    · have h3' : ¬ 0 < To1 - Ti2 := by linarith
      simp only [h1, h1', h2, h3, h3', if_true, if_false]
      constructor <;> first | rfl | (ring; done) | trivial
    · have h3' : 0 < To1 - Ti2 := by linarith
      simp only [h1, h1', h2, h3, h3', if_true, if_false]
      constructor <;> first | rfl | (ring; done) | trivial
  · have h1' : 0 < Ti1 - To2 := by linarith
    by_cases h3 : To1 ≤ Ti2
    · have h3' : ¬ 0 < To1 - Ti2 := by linarith
      simp only [h1, h1', h3, h3', if_true, if_false]
      constructor <;> first | rfl | (ring; done) | trivial
    · have h3' : 0 < To1 - Ti2 := by linarith
      simp only [h1, h1', h3, h3', if_true, if_false]
      constructor <;> first | rfl | (ring; done) | trivial

theorem Spec.guarded_pos (d : ℝ) {r : ℝ} (hr : 0 < r) : 0 < Spec.guarded d r := by
  unfold Spec.guarded; split <;> assumption

/-- C40, heat exchangers: for all temperatures the logarithmic temperature difference is defined,
it is the logarithmic mean of the two terminal differences, where a difference that is not
positive is replaced by 0.01 K at the hot inlet and 0.02 K at the cold inlet. In particular it is
positive and lies between the two. -/
theorem C40_heat_exchanger (Ti1 Ti2 To1 To2 : ℝ) :
    ∃ td, hexTdLog Ti1 Ti2 To1 To2 = .ok td ∧
      td = Spec.logMean (Spec.guarded (Ti1 - To2) 0.01) (Spec.guarded (To1 - Ti2) 0.02) ∧
      0 < td ∧
      min (Spec.guarded (Ti1 - To2) 0.01) (Spec.guarded (To1 - Ti2) 0.02) ≤ td ∧
      td ≤ max (Spec.guarded (Ti1 - To2) 0.01) (Spec.guarded (To1 - Ti2) 0.02) := by
  have e1 : (0.01 : ℝ) = 1 / 100 := by norm_num
  have e2 : (0.02 : ℝ) = 2 / 100 := by norm_num
  rw [e1, e2]
  have hu := Spec.guarded_pos (Ti1 - To2) (r := 1 / 100) (by norm_num)
  have hl := Spec.guarded_pos (To1 - Ti2) (r := 2 / 100) (by norm_num)
  refine ⟨_, ?_, rfl, Spec.logMean_pos hu hl, Spec.logMean_between hu hl⟩
  unfold hexTdLog
  rw [(hexAdjust_diff Ti1 Ti2 To1 To2).1, (hexAdjust_diff Ti1 Ti2 To1 To2).2, tdLogOf_pos hu hl]

/-- Non-trivial case: proper counter-current temperatures. -/
example : hexTdLog 400 300 320 350 = .ok ((50 - 20) / (Real.log 50 - Real.log 20)) := by
  obtain ⟨td, h, h2, -⟩ := C40_heat_exchanger 400 300 320 350
  rw [h, h2]
  norm_num [Spec.guarded, Spec.logMean]

theorem condAdjust_diff (s : TSet) (Ti1 Ti2 To1 To2 : ℝ)
    (hu : To2 < Ti1 ∨ s.i1 = false ∨ s.o2 = false)
    (hl : Ti2 < To1 ∨ s.o1 = false ∨ s.i2 = false) :
    (condAdjust s Ti1 Ti2 To1 To2).1 - (condAdjust s Ti1 Ti2 To1 To2).2.2.2
      = Spec.guarded (Ti1 - To2) (1 / 2) ∧
    (condAdjust s Ti1 Ti2 To1 To2).2.2.1 - (condAdjust s Ti1 Ti2 To1 To2).2.1
      = Spec.guarded (To1 - Ti2) 1 := by
  unfold condAdjust Spec.guarded
  have n1 : ∀ x : ℝ, ¬ (x + 1 / 2 ≤ x) := fun x => by norm_num
  have n2 : ∀ x : ℝ, ¬ (x + 1 ≤ x) := fun x => by norm_num
  constructor
  · by_cases h1 : Ti1 ≤ To2
    · have h1' : ¬ 0 < Ti1 - To2 := by linarith
      cases h3 : s.i1
      · simp only [h1, h1', n1, if_true, if_false, and_self, false_and]; ring
      · have h4 : s.o2 = false := by
          rcases hu with h | h | h
          · linarith
          · rw [h3] at h; cases h
          · exact h
        simp only [h1, h1', h4, if_true, if_false, and_self, and_false, Bool.true_eq_false]; ring
    · have h1' : 0 < Ti1 - To2 := by linarith
      simp only [h1, h1', if_true, if_false, false_and]
  · by_cases h1 : To1 ≤ Ti2
    · have h1' : ¬ 0 < To1 - Ti2 := by linarith
      cases h3 : s.o1
      · simp only [h1, h1', n2, if_true, if_false, and_self, false_and]; ring
      · have h4 : s.i2 = false := by
          rcases hl with h | h | h
          · linarith
          · rw [h3] at h; cases h
          · exact h
        simp only [h1, h1', h4, if_true, if_false, and_self, and_false, Bool.true_eq_false]; ring
    · have h1' : 0 < To1 - Ti2 := by linarith
      simp only [h1, h1', if_true, if_false, false_and]

/-- C40, condensers (partial): the same, if on each end of the condenser the difference is
positive or one of the two temperatures is not specified by the user. -/
theorem C40_condenser_partial (s : TSet) (Ti1 Ti2 To1 To2 : ℝ)
    (hu : To2 < Ti1 ∨ s.i1 = false ∨ s.o2 = false)
    (hl : Ti2 < To1 ∨ s.o1 = false ∨ s.i2 = false) :
    ∃ td, condTdLog s Ti1 Ti2 To1 To2 = .ok td ∧
      td = Spec.logMean (Spec.guarded (Ti1 - To2) 0.5) (Spec.guarded (To1 - Ti2) 1) ∧
      0 < td ∧
      min (Spec.guarded (Ti1 - To2) 0.5) (Spec.guarded (To1 - Ti2) 1) ≤ td ∧
      td ≤ max (Spec.guarded (Ti1 - To2) 0.5) (Spec.guarded (To1 - Ti2) 1) := by
  have e1 : (0.5 : ℝ) = 1 / 2 := by norm_num
  rw [e1]
  have hu' := Spec.guarded_pos (Ti1 - To2) (r := 1 / 2) (by norm_num)
  have hl' := Spec.guarded_pos (To1 - Ti2) (r := 1) (by norm_num)
  refine ⟨_, ?_, rfl, Spec.logMean_pos hu' hl', Spec.logMean_between hu' hl'⟩
  unfold condTdLog
  rw [(condAdjust_diff s Ti1 Ti2 To1 To2 hu hl).1, (condAdjust_diff s Ti1 Ti2 To1 To2 hu hl).2,
    tdLogOf_pos hu' hl']

/-- Non-trivial case of `C40_condenser_partial`: the cold outlet is specified above the
saturation temperature, the hot inlet temperature is free. -/
example : ∃ td, condTdLog ⟨false, true, false, true⟩ 350 300 340 360 = .ok td ∧ 0 < td := by
  obtain ⟨td, h, -, h2, -⟩ := C40_condenser_partial ⟨false, true, false, true⟩ 350 300 340 360
    (.inr (.inl rfl)) (.inl (by norm_num))
  exact ⟨td, h, h2⟩

/-- C40 does not hold for condensers in general: with the temperature of hot inlet and cold outlet
both specified by the user, the iteration can reach a saturation temperature below the cold outlet
temperature and `calculate_td_log` stops with a math domain error (350 K against 360 K), or with a
division by zero if the two are equal. -/
theorem C40_condenser_false :
    condTdLog ⟨true, true, false, true⟩ 350 300 340 360 = .error .mathDomain ∧
    condTdLog ⟨true, true, false, true⟩ 360 300 340 360 = .error .zeroDivision := by
  constructor <;> unfold condTdLog condAdjust tdLogOf logQuot <;> norm_num

/-- The exact domain of the equation of simple heat exchangers. -/
theorem C40_simple (Ti To Tamb : ℝ) :
    (∃ td, simpleTd Ti To Tamb = .ok td) ↔ Ti ≠ Tamb ∧ To ≠ Tamb := by
  unfold simpleTd
  by_cases h2 : To - Tamb = 0
  · have : To = Tamb := by linarith
    simp [h2, this]
  have h2' : To ≠ Tamb := fun h => h2 (by linarith)
  rw [if_neg h2]
  by_cases h1 : Ti = Tamb
  · subst h1
    have hn : ¬ ((Ti - Ti) / (To - Ti) < 0) := by simp
    rw [if_neg hn]
    rcases lt_trichotomy Ti To with h | h | h
    · rw [if_neg (by linarith), if_pos (by linarith)]
      simp [logQuot]
    · exact absurd h.symm h2'
    · rw [if_pos (by linarith)]
      simp [logQuot, h2]
  have h1' : Ti - Tamb ≠ 0 := fun h => h1 (by linarith)
  refine ⟨fun _ => ⟨h1, h2'⟩, fun _ => ?_⟩
  by_cases hr : (Ti - Tamb) / (To - Tamb) < 0
  · rw [if_pos hr]; exact ⟨_, rfl⟩
  rw [if_neg hr]
  have hq : 0 < (Ti - Tamb) / (To - Tamb) :=
    lt_of_le_of_ne (not_lt.1 hr) (Ne.symm (div_ne_zero h1' h2))
  have hq' : 0 < (To - Tamb) / (Ti - Tamb) := by
    rw [← inv_div]; exact inv_pos.2 hq
  by_cases hg : Ti - Tamb > To - Tamb
  · rw [if_pos hg]
    unfold logQuot
    rw [if_neg h2, if_neg (not_le.2 hq), if_neg]
    · exact ⟨_, rfl⟩
    · intro h0
      rcases Real.log_eq_zero.1 h0 with h | h | h
      · linarith
      · rw [div_eq_one_iff_eq h2] at h; linarith
      · linarith
  rw [if_neg hg]
  by_cases hg' : Ti - Tamb < To - Tamb
  · rw [if_pos hg']
    unfold logQuot
    rw [if_neg h1', if_neg (not_le.2 hq'), if_neg]
    · exact ⟨_, rfl⟩
    · intro h0
      rcases Real.log_eq_zero.1 h0 with h | h | h
      · linarith
      · rw [div_eq_one_iff_eq h1'] at h; linarith
      · linarith
  rw [if_neg hg']; exact ⟨_, rfl⟩

theorem logQuot_neg {a b : ℝ} (ha : a < 0) (hb : b < 0) (h : a ≠ b) :
    logQuot a b = .ok (-Spec.logMean (-a) (-b)) := by
  unfold logQuot Spec.logMean
  have hl := log_quot_ne (neg_pos.2 ha) (neg_pos.2 hb) (fun h' => h (neg_injective h'))
  rw [neg_div_neg_eq] at hl
  rw [if_neg hb.ne, if_neg (not_le.2 (div_pos_of_neg_of_neg ha hb)), if_neg hl,
    if_neg (fun h' => h (neg_injective h')), ← neg_div_neg_eq a b,
    Real.log_div (neg_pos.2 ha).ne' (neg_pos.2 hb).ne']
  congr 1
  rw [← neg_div]; ring_nf

/-- Simple heat exchangers: if inlet and outlet are both warmer (colder) than the ambient, the
difference used is the (negative) logarithmic mean of the distances to the ambient. -/
theorem C40_simple_value (Ti To Tamb : ℝ) :
    (Tamb < Ti → Tamb < To →
      simpleTd Ti To Tamb = .ok (Spec.logMean (Ti - Tamb) (To - Tamb))) ∧
    (Ti < Tamb → To < Tamb →
      simpleTd Ti To Tamb = .ok (-Spec.logMean (Tamb - Ti) (Tamb - To))) := by
  constructor
  · intro h1 h2
    have h1 : 0 < Ti - Tamb := by linarith
    have h2 : 0 < To - Tamb := by linarith
    unfold simpleTd
    rw [if_neg h2.ne', if_neg (not_lt.2 (div_pos h1 h2).le)]
    by_cases hg : Ti - Tamb > To - Tamb
    · rw [if_pos hg, logQuot_pos h1 h2 hg.ne']
    rw [if_neg hg]
    by_cases hg' : Ti - Tamb < To - Tamb
    · rw [if_pos hg', logQuot_pos h2 h1 hg'.ne', Spec.logMean_comm]
    rw [if_neg hg']
    have : Ti - Tamb = To - Tamb := le_antisymm (not_lt.1 hg) (not_lt.1 hg')
    rw [this]; simp [Spec.logMean]
  · intro h1 h2
    have h1 : Ti - Tamb < 0 := by linarith
    have h2 : To - Tamb < 0 := by linarith
    have e1 : Tamb - Ti = -(Ti - Tamb) := by ring
    have e2 : Tamb - To = -(To - Tamb) := by ring
    rw [e1, e2]
    unfold simpleTd
    rw [if_neg h2.ne, if_neg (not_lt.2 (div_pos_of_neg_of_neg h1 h2).le)]
    by_cases hg : Ti - Tamb > To - Tamb
    · rw [if_pos hg, logQuot_neg h1 h2 hg.ne']
    rw [if_neg hg]
    by_cases hg' : Ti - Tamb < To - Tamb
    · rw [if_pos hg', logQuot_neg h2 h1 hg'.ne', Spec.logMean_comm]
    rw [if_neg hg']
    have : Ti - Tamb = To - Tamb := le_antisymm (not_lt.1 hg) (not_lt.1 hg')
    rw [this]; simp [Spec.logMean]

example : simpleTd 400 320 300 = .ok (Spec.logMean 100 20) := by
  have := (C40_simple_value 400 320 300).1 (by norm_num) (by norm_num)
  norm_num at this; exact this

/-- C40 does not hold for simple heat exchangers: a state of the iteration in which the inlet or
the outlet has ambient temperature stops the calculation with an exception. -/
theorem C40_simple_false :
    simpleTd 350 300 300 = .error .zeroDivision ∧ simpleTd 300 350 300 = .error .zeroDivision ∧
    simpleTd 300 280 300 = .error .mathDomain := by
  refine ⟨?_, ?_, ?_⟩ <;> unfold simpleTd <;> norm_num [logQuot]

end Tespy
