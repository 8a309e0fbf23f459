import Verif.Props.TdLog
import Mathlib.Algebra.BigOperators.Group.Finset.Basic
import Mathlib.Algebra.BigOperators.Intervals
import Mathlib.Tactic.FieldSimp
import Mathlib.Tactic.LinearCombination

/-!
C88: heat exchangers in series.
-/
namespace Tespy

/-! ### Specification -/

/-- Counter-current heat exchangers in series: the hot stream passes the states `hot 0`, …, `hot n`, the cold stream
`cold n`, …, `cold 0`. Both have constant heat capacity flows `c1` and `c2`, each exchanger is balanced, and the hot stream
is the hotter one everywhere. -/
structure Spec.Countercurrent (hot cold : ℕ → HStream) (c1 c2 : ℝ) (n : ℕ) : Prop where
  c1_ne : c1 ≠ 0
  c2_ne : c2 ≠ 0
  flow : ∀ k ≤ n, (hot k).m = (hot 0).m
  hotHeat : ∀ k < n, (hot 0).m * ((hot k).h - (hot (k + 1)).h) = c1 * ((hot k).T - (hot (k + 1)).T)
  coldHeat : ∀ k < n, (hot 0).m * ((hot k).h - (hot (k + 1)).h) = c2 * ((cold k).T - (cold (k + 1)).T)
  hotter : ∀ k ≤ n, (cold k).T < (hot k).T

/-- The heat exchanger between the states `j` and `k`. -/
def Spec.section (b : HexState) (hot cold : ℕ → HStream) (j k : ℕ) : HexState :=
  { b with i1 := hot j, o1 := hot k, i2 := cold k, o2 := cold j }

theorem hexKARes_pos (s : HexState) (kA : ℝ) (hu : s.o2.T < s.i1.T) (hl : s.i2.T < s.o1.T) :
    hexKARes s kA = .ok 0 ↔
      kA * Spec.logMean (s.i1.T - s.o2.T) (s.o1.T - s.i2.T) = s.i1.m * (s.i1.h - s.o1.h) := by
  obtain ⟨td, h1, h2, -⟩ := C40_heat_exchanger s.i1.T s.i2.T s.o1.T s.o2.T
  unfold hexKARes
  rw [h1, Except.ok.injEq, h2]
  simp only [Spec.guarded, if_pos (sub_pos.2 hu), if_pos (sub_pos.2 hl)]
  constructor <;> intro h <;> linarith

theorem logMean_unequal (a b kA q r : ℝ) (ha : 0 < a) (hb : 0 < b) (hr : r ≠ 0) (hd : a - b = q * r) :
    kA * Spec.logMean a b = q ↔ kA * r = Real.log a - Real.log b := by
  by_cases hab : a = b
  · subst hab
    have hq : q = 0 := by
      have : q * r = 0 := by rw [← hd]; ring
      exact (mul_eq_zero.1 this).resolve_right hr
    unfold Spec.logMean
    rw [if_pos rfl, hq, sub_self]
    constructor
    · intro h
      rw [(mul_eq_zero.1 h).resolve_right ha.ne', zero_mul]
    · intro h
      rw [(mul_eq_zero.1 h).resolve_right hr, zero_mul]
  · have hlog : Real.log a - Real.log b ≠ 0 := by
      rw [← Real.log_div ha.ne' hb.ne']
      exact log_quot_ne ha hb hab
    have hq : q ≠ 0 := by
      intro h0
      rw [h0, zero_mul] at hd
      exact hab (sub_eq_zero.1 hd)
    unfold Spec.logMean
    rw [if_neg hab, hd, mul_div_assoc', div_eq_iff hlog]
    constructor
    · intro h
      exact mul_left_cancel₀ hq (by linear_combination h)
    · intro h
      linear_combination q * h

/-- C88: heat exchangers in series act as one with the sum of their heat transfer coefficients. -/
theorem C88_series (b : HexState) (hot cold : ℕ → HStream) (c1 c2 : ℝ) (n : ℕ) (kA : ℕ → ℝ)
    (h : Spec.Countercurrent hot cold c1 c2 n)
    (hk : ∀ k < n, hexKARes (Spec.section b hot cold k (k + 1)) (kA k) = .ok 0) :
    hexKARes (Spec.section b hot cold 0 n) (∑ k ∈ Finset.range n, kA k) = .ok 0 := by
  have hpos : ∀ k ≤ n, 0 < (hot k).T - (cold k).T := fun k hk => sub_pos.2 (h.hotter k hk)
  have e : ∀ k < n, kA k * Spec.logMean ((hot k).T - (cold k).T) ((hot (k + 1)).T - (cold (k + 1)).T)
      = (hot 0).m * ((hot k).h - (hot (k + 1)).h) := by
    intro k hkn
    have := (hexKARes_pos _ _ (h.hotter k (by omega)) (h.hotter (k + 1) (by omega))).1 (hk k hkn)
    rw [← h.flow k (by omega)]
    exact this
  refine (hexKARes_pos _ _ (h.hotter 0 (by omega)) (h.hotter n le_rfl)).2 ?_
  show (∑ k ∈ Finset.range n, kA k) * Spec.logMean ((hot 0).T - (cold 0).T) ((hot n).T - (cold n).T)
    = (hot 0).m * ((hot 0).h - (hot n).h)
  have hD : ∀ k < n, ((hot k).T - (cold k).T) - ((hot (k + 1)).T - (cold (k + 1)).T)
      = (hot 0).m * ((hot k).h - (hot (k + 1)).h) * (1 / c1 - 1 / c2) := by
    intro k hkn
    have ha := h.hotHeat k hkn
    have hb := h.coldHeat k hkn
    have hc1 := h.c1_ne
    have hc2 := h.c2_ne
    have a1 : (hot 0).m * ((hot k).h - (hot (k + 1)).h) * (1 / c1) = (hot k).T - (hot (k + 1)).T := by
      rw [ha]; field_simp
    have a2 : (hot 0).m * ((hot k).h - (hot (k + 1)).h) * (1 / c2) = (cold k).T - (cold (k + 1)).T := by
      rw [hb]; field_simp
    rw [mul_sub, a1, a2]; ring
  have hQ : ∀ j ≤ n, ∑ k ∈ Finset.range j, (hot 0).m * ((hot k).h - (hot (k + 1)).h)
      = (hot 0).m * ((hot 0).h - (hot j).h) := by
    intro j _
    rw [← Finset.mul_sum, Finset.sum_range_sub']
  have hDn : ∀ j ≤ n, ((hot 0).T - (cold 0).T) - ((hot j).T - (cold j).T)
      = (hot 0).m * ((hot 0).h - (hot j).h) * (1 / c1 - 1 / c2) := by
    intro j hj
    rw [← hQ j hj, Finset.sum_mul, ← Finset.sum_range_sub' (fun k => (hot k).T - (cold k).T) j]
    exact Finset.sum_congr rfl (fun k hk => hD k (by have := Finset.mem_range.1 hk; omega))
  by_cases hr : 1 / c1 - 1 / c2 = 0
  · have hconst : ∀ j ≤ n, (hot j).T - (cold j).T = (hot 0).T - (cold 0).T := by
      intro j hj
      have := hDn j hj
      rw [hr, mul_zero] at this
      linarith
    rw [hconst n le_rfl, ← hQ n le_rfl, Finset.sum_mul]
    refine Finset.sum_congr rfl (fun k hk => ?_)
    have hkn := Finset.mem_range.1 hk
    have := e k hkn
    rwa [hconst k (by omega), hconst (k + 1) (by omega)] at this
  · rw [logMean_unequal _ _ _ _ _ (hpos 0 (by omega)) (hpos n le_rfl) hr (hDn n le_rfl), Finset.sum_mul,
      ← Finset.sum_range_sub' (fun k => Real.log ((hot k).T - (cold k).T)) n]
    refine Finset.sum_congr rfl (fun k hk => ?_)
    have hkn := Finset.mem_range.1 hk
    exact (logMean_unequal _ _ _ _ _ (hpos k (by omega)) (hpos (k + 1) (by omega)) hr (hD k hkn)).1 (e k hkn)

/-! ### Examples -/

/-- Two exchangers with heat capacity flows 1 and 2: the hot stream from 80 over 60 to 40, the cold one from 10 over 20
to 30; the heat transfer coefficients follow from the logarithmic means of 50, 40 and 30. -/
example (b : HexState) : Spec.Countercurrent (fun k => ⟨1, 1, 80 - 20 * k, 80 - 20 * k, 1⟩)
      (fun k => ⟨2, 1, 30 - 10 * k, 30 - 10 * k, 1⟩) 1 2 2
    ∧ ∀ k < 2, hexKARes (Spec.section b (fun k => ⟨1, 1, 80 - 20 * k, 80 - 20 * k, 1⟩)
        (fun k => ⟨2, 1, 30 - 10 * k, 30 - 10 * k, 1⟩) k (k + 1))
        (20 / Spec.logMean (50 - 10 * k) (50 - 10 * (k + 1))) = .ok 0 := by
  constructor
  · constructor
    · norm_num
    · norm_num
    · intro k _; rfl
    · intro k _; dsimp only
    · intro k _; push_cast; ring
    · intro k hk
      have : (k : ℝ) ≤ 2 := by exact_mod_cast hk
      dsimp only
      linarith
  · intro k hk
    have hk' : (k : ℝ) ≤ 1 := by exact_mod_cast Nat.lt_succ_iff.1 hk
    rw [hexKARes_pos]
    · have e1 : ((80 - 20 * (k : ℝ)) - (30 - 10 * k)) = 50 - 10 * k := by ring
      have e2 : ((80 - 20 * ((k + 1 : ℕ) : ℝ)) - (30 - 10 * ((k + 1 : ℕ) : ℝ))) = 50 - 10 * (k + 1) := by push_cast; ring
      simp only [Spec.section]
      rw [e1, e2, div_mul_cancel₀]
      · push_cast; ring
      · exact (Spec.logMean_pos (by linarith) (by linarith)).ne'
    · simp only [Spec.section]; linarith
    · simp only [Spec.section]; push_cast; linarith

end Tespy
