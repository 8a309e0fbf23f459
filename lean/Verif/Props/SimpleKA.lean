import Verif.Model.HeatTransfer
import Mathlib.Analysis.SpecialFunctions.Log.Basic
import Mathlib.Tactic.Linarith
import Mathlib.Tactic.Ring
import Mathlib.Tactic.FieldSimp
import Mathlib.Tactic.LinearCombination
import Mathlib.Tactic.NormNum

/-!
C88: the temperature at the end of a pipe or simple heat exchanger with given heat transfer coefficient and ambient
temperature.
-/
namespace Tespy

/-- The outlet is the inlet heated or cooled at the constant heat capacity `c`. -/
structure Spec.ConstCp (i o : HStream) (c : ℝ) : Prop where
  cp : 0 < c
  flow : 0 < i.m
  change : o.h - i.h = c * (o.T - i.T)

theorem logQuot_same {a b : ℝ} (ha : a ≠ 0) (hb : b ≠ 0) (hab : a ≠ b) (h : 0 < a / b) :
    logQuot a b = .ok ((a - b) / Real.log (a / b)) ∧ Real.log (a / b) ≠ 0 := by
  have hl : Real.log (a / b) ≠ 0 := by
    intro hl
    rcases Real.log_eq_zero.1 hl with h' | h' | h'
    · rw [h'] at h; exact lt_irrefl _ h
    · exact hab ((div_eq_one_iff_eq hb).1 h')
    · linarith
  refine ⟨?_, hl⟩
  unfold logQuot
  rw [if_neg hb, if_neg (not_le.2 h), if_neg hl]

/-- The logarithmic equation. -/
theorem log_solution {t1 t2 w k : ℝ} (h1 : t1 ≠ 0) (h2 : t2 ≠ 0) (hne : t1 ≠ t2) (hs : 0 < t1 / t2) (hw : 0 < w) :
    (w * (t2 - t1) + k * ((t1 - t2) / Real.log (t1 / t2)) = 0 ↔ t2 = t1 * Real.exp (-k / w)) := by
  have hl := (logQuot_same h1 h2 hne hs).2
  have hd : t1 - t2 ≠ 0 := sub_ne_zero.2 hne
  constructor
  · intro h
    have hk : k = w * Real.log (t1 / t2) := by
      field_simp at h
      have : (t1 - t2) * (k - w * Real.log (t1 / t2)) = 0 := by linear_combination h
      rcases mul_eq_zero.1 this with h' | h'
      · exact absurd h' hd
      · linarith
    rw [hk, show -(w * Real.log (t1 / t2)) / w = -Real.log (t1 / t2) by field_simp, Real.exp_neg, Real.exp_log hs]
    field_simp
  · intro h
    have hk : Real.log (t1 / t2) = k / w := by
      have : t1 / t2 = Real.exp (k / w) := by
        rw [h, neg_div, Real.exp_neg]
        field_simp
      rw [this, Real.log_exp]
    rw [hk]
    rw [hk] at hl
    have hk0 : k ≠ 0 := fun h0 => hl (by rw [h0, zero_div])
    field_simp
    ring

/-- C88 for pipes and simple heat exchangers: the states which satisfy the equation of `kA` and `Tamb` at constant heat
capacity are the exponential approach to the ambient temperature, and, exactly for `kA` above twice the heat capacity
flow, another one on the other side of the ambient temperature. -/
theorem C88_simple_kA_partial (i o : HStream) (c Tamb kA : ℝ) (h : Spec.ConstCp i o c) (hk : 0 < kA)
    (hi : i.T ≠ Tamb) :
    simpleKARes i o Tamb kA = .ok 0 ↔
      o.T = Tamb + (i.T - Tamb) * Real.exp (-kA / (i.m * c)) ∨
      (2 * (i.m * c) < kA ∧ o.T = Tamb + (i.T - Tamb) * ((2 * (i.m * c) - kA) / (2 * (i.m * c) + kA))) := by
  obtain ⟨hc, hm, hh⟩ := h
  have hw : 0 < i.m * c := mul_pos hm hc
  unfold simpleKARes simpleTd
  rw [hh]
  set w := i.m * c with hwd
  have e1 : i.T - Tamb ≠ 0 := sub_ne_zero.2 hi
  obtain ⟨t1, ht1⟩ : ∃ t, t = i.T - Tamb := ⟨_, rfl⟩
  obtain ⟨t2, ht2⟩ : ∃ t, t = o.T - Tamb := ⟨_, rfl⟩
  have hT : o.T - i.T = t2 - t1 := by rw [ht1, ht2]; ring
  have ho : ∀ x, o.T = Tamb + x ↔ t2 = x := fun x => by
    rw [ht2]; constructor <;> intro hx <;> linarith
  rw [← ht1] at e1
  rw [ho, ho, ← ht1, ← ht2, hT]
  have hm2 : ∀ x, i.m * (c * x) = w * x := fun x => by rw [hwd]; ring
  rw [hm2]
  have hexp : 0 < Real.exp (-kA / w) := Real.exp_pos _
  by_cases h2 : t2 = 0
  · rw [if_pos h2]
    constructor
    · intro h; cases h
    · rintro (h | ⟨hlt, h⟩)
      · rw [h2] at h
        rcases mul_eq_zero.1 h.symm with h' | h'
        · exact absurd h' e1
        · exact absurd h' hexp.ne'
      · rw [h2] at h
        rcases mul_eq_zero.1 h.symm with h' | h'
        · exact absurd h' e1
        · rw [div_eq_zero_iff] at h'
          rcases h' with h' | h' <;> linarith
  · rw [if_neg h2]
    by_cases hs : t1 / t2 < 0
    · rw [if_pos hs]
      simp only [Except.ok.injEq]
      have hquot : ∀ x : ℝ, t2 = t1 * x → x < 0 := by
        intro x hx
        have hx0 : x ≠ 0 := fun h0 => h2 (by rw [hx, h0, mul_zero])
        have : t1 / t2 = 1 / x := by rw [hx]; field_simp
        rw [this] at hs
        exact one_div_neg.1 hs
      constructor
      · intro heq
        right
        have hx : t2 = t1 * ((2 * w - kA) / (2 * w + kA)) := by
          have : 2 * w + kA ≠ 0 := by positivity
          field_simp
          linear_combination 2 * heq
        have hneg := hquot _ hx
        have hp : 0 < 2 * w + kA := by positivity
        rw [div_neg_iff] at hneg
        refine ⟨?_, hx⟩
        rcases hneg with h' | h' <;> linarith [h'.1, h'.2]
      · rintro (h' | ⟨hlt, h'⟩)
        · have := hquot _ h'; linarith
        · rw [h']
          have : 2 * w + kA ≠ 0 := by positivity
          field_simp
          ring
    · rw [if_neg hs]
      have hs' : 0 < t1 / t2 := lt_of_le_of_ne (not_lt.1 hs) (Ne.symm (div_ne_zero e1 h2))
      have hno : ¬ (2 * w < kA ∧ t2 = t1 * ((2 * w - kA) / (2 * w + kA))) := by
        rintro ⟨hlt, h'⟩
        have hq : t1 / t2 = (2 * w + kA) / (2 * w - kA) := by
          have a1 : 2 * w + kA ≠ 0 := by positivity
          have a2 : 2 * w - kA ≠ 0 := by linarith
          rw [h']; field_simp
        rw [hq] at hs'
        have := div_neg_of_pos_of_neg (show 0 < 2 * w + kA by positivity) (show 2 * w - kA < 0 by linarith)
        linarith
      rw [or_iff_left hno]
      rcases lt_trichotomy t2 t1 with hlt | heq | hgt
      · rw [if_pos hlt, (logQuot_same e1 h2 hlt.ne' hs').1]
        simp only [Except.ok.injEq]
        exact log_solution e1 h2 hlt.ne' hs' hw
      · rw [if_neg (by rw [heq]; exact lt_irrefl _), if_neg (by rw [heq]; exact lt_irrefl _)]
        simp only [Except.ok.injEq]
        constructor
        · intro h'
          rw [heq, sub_self, mul_zero, zero_add] at h'
          rcases mul_eq_zero.1 h' with h'' | h''
          · exact absurd h'' hk.ne'
          · exact absurd h'' e1
        · intro h'
          rw [heq] at h'
          have h1 : Real.exp (-kA / w) = 1 := by
            have : t1 * (Real.exp (-kA / w) - 1) = 0 := by linear_combination -h'
            rcases mul_eq_zero.1 this with h'' | h''
            · exact absurd h'' e1
            · linarith
          rw [Real.exp_eq_one_iff, div_eq_zero_iff] at h1
          rcases h1 with h1 | h1 <;> linarith
      · have hs2 : 0 < t2 / t1 := by rw [← inv_div]; exact inv_pos.2 hs'
        rw [if_neg (not_lt.2 hgt.le), if_pos hgt, (logQuot_same h2 e1 hgt.ne' hs2).1]
        simp only [Except.ok.injEq]
        rw [← log_solution e1 h2 hgt.ne hs' hw]
        have : (t2 - t1) / Real.log (t2 / t1) = (t1 - t2) / Real.log (t1 / t2) := by
          rw [← inv_div t1 t2, Real.log_inv, div_neg, ← neg_div, neg_sub]
        rw [this]

/-- C88: the first solution is between inlet and ambient temperature, the second one beyond the ambient temperature. -/
theorem C88_simple_kA_second_law (i o : HStream) (c Tamb kA : ℝ) (h : Spec.ConstCp i o c) (hk : 0 < kA)
    (hi : Tamb < i.T) (hs : simpleKARes i o Tamb kA = .ok 0) :
    (Tamb < o.T ∧ o.T < i.T) ∨ (2 * (i.m * c) < kA ∧ o.T < Tamb) := by
  have hw : 0 < i.m * c := mul_pos h.flow h.cp
  have hd : 0 < i.T - Tamb := by linarith
  rcases (C88_simple_kA_partial i o c Tamb kA h hk hi.ne').1 hs with h' | ⟨hlt, h'⟩
  · left
    have h0 : 0 < Real.exp (-kA / (i.m * c)) := Real.exp_pos _
    have h1 : Real.exp (-kA / (i.m * c)) < 1 := by
      rw [Real.exp_lt_one_iff]
      exact div_neg_of_neg_of_pos (by linarith) hw
    have a := mul_pos hd h0
    have b := mul_lt_of_lt_one_right hd h1
    constructor <;> linarith
  · right
    refine ⟨hlt, ?_⟩
    have := mul_neg_of_pos_of_neg hd
      (div_neg_of_neg_of_pos (show 2 * (i.m * c) - kA < 0 by linarith) (show 0 < 2 * (i.m * c) + kA by linarith))
    linarith

/-- C88 is false for pipes: with 500 W/K and 100 W/K of heat capacity flow, a liquid of 80 degC leaves a pipe in air of 20
degC at less than -5 degC in a second solution of the equation; the results of that solution end with a math domain error. -/
theorem C88_simple_kA_false :
    ∃ i o : HStream, Spec.ConstCp i o 100 ∧ i.T = 35315 / 100 ∧ o.T < 26815 / 100 ∧
      simpleKARes i o (29315 / 100) 500 = .ok 0 ∧ simpleKAReported i o (29315 / 100) = .error .mathDomain := by
  have hc : Spec.ConstCp ⟨1, 1, 0, 35315 / 100, 1⟩ ⟨1, 1, 100 * (29315 / 100 + 60 * (-3 / 7) - 35315 / 100),
      29315 / 100 + 60 * (-3 / 7), 1⟩ 100 := ⟨by norm_num, by norm_num, by norm_num⟩
  refine ⟨_, _, hc, rfl, by norm_num, ?_, ?_⟩
  · rw [C88_simple_kA_partial _ _ 100 _ _ hc (by norm_num) (by norm_num)]
    right
    constructor <;> norm_num
  · norm_num [simpleKAReported, simpleTdReported, logQuot]

/-- C88 is false at the ambient temperature: if the stream enters a pipe at the temperature of the ambient, the equation
raises an error for every outlet. -/
theorem C88_simple_ambient_false (i o : HStream) (kA : ℝ) :
    ∃ e, simpleKARes i o i.T kA = .error e := by
  unfold simpleKARes simpleTd
  rw [sub_self, zero_div]
  by_cases h0 : o.T - i.T = 0
  · rw [if_pos h0]; exact ⟨_, rfl⟩
  · rw [if_neg h0, if_neg (lt_irrefl _)]
    rcases lt_trichotomy (o.T - i.T) 0 with h | h | h
    · rw [if_pos h, logQuot, if_neg h0, zero_div, if_pos le_rfl]
      exact ⟨_, rfl⟩
    · exact absurd h h0
    · rw [if_neg (not_lt.2 h.le), if_pos h, logQuot, if_pos rfl]
      exact ⟨_, rfl⟩

-- non-vacuity: the physical solution of the same pipe
example : ∃ i o : HStream, Spec.ConstCp i o 100 ∧ (29315 : ℝ) / 100 < i.T ∧
    simpleKARes i o (29315 / 100) 500 = .ok 0 ∧ 29315 / 100 < o.T := by
  have hc : Spec.ConstCp ⟨1, 1, 0, 35315 / 100, 1⟩
      ⟨1, 1, 100 * (29315 / 100 + (35315 / 100 - 29315 / 100) * Real.exp (-500 / (1 * 100)) - 35315 / 100),
      29315 / 100 + (35315 / 100 - 29315 / 100) * Real.exp (-500 / (1 * 100)), 1⟩ 100 :=
    ⟨by norm_num, by norm_num, by simp only; ring⟩
  refine ⟨_, _, hc, by norm_num, ?_, ?_⟩
  · rw [C88_simple_kA_partial _ _ 100 _ _ hc (by norm_num) (by norm_num)]
    exact .inl rfl
  · have := Real.exp_pos (-500 / (1 * 100))
    simp only
    linarith

end Tespy
