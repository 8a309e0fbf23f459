import Verif.Model.HeatTransfer
import Mathlib.Analysis.SpecialFunctions.Sqrt
import Mathlib.Tactic.Linarith
import Mathlib.Tactic.Ring
import Mathlib.Tactic.FieldSimp
import Mathlib.Tactic.LinearCombination
import Mathlib.Tactic.NormNum

/-!
C114: mass flow and inlet pressure of a turbine with the cone law.
-/
namespace Tespy

/-- A turbine with an expansion from `di.p` to `pod` in the design case, and positive values. -/
structure Spec.ConeCase (i o : HStream) (di : HDesign) (pod : ℝ) : Prop where
  inP : 0 < i.p
  inV : 0 < i.vol
  outP : 0 < o.p
  dM : 0 < di.m
  dV : 0 < di.vol
  dOut : 0 < pod
  expansion : pod < di.p

/-- Stodola's ellipse: `m² · p₁ v₁ / (p₁² - p₂²)` is the same in the design case. -/
def Spec.Ellipse (i o : HStream) (di : HDesign) (pod : ℝ) : Prop :=
  i.m ^ 2 * (i.p * i.vol) * (di.p ^ 2 - pod ^ 2) = di.m ^ 2 * (di.p * di.vol) * (i.p ^ 2 - o.p ^ 2)

/-- The same with the pressures exchanged. -/
def Spec.MirroredEllipse (i o : HStream) (di : HDesign) (pod : ℝ) : Prop :=
  i.m ^ 2 * (i.p * i.vol) * (di.p ^ 2 - pod ^ 2) = di.m ^ 2 * (di.p * di.vol) * (o.p ^ 2 - i.p ^ 2)

/-- C114: what the equation means. A state satisfies it exactly if the flow is not backwards and it is on the ellipse, or on
its mirror image, where the pressure rises from the inlet to the outlet. -/
theorem C114_ellipse_partial (i o : HStream) (di : HDesign) (pod : ℝ) (h : Spec.ConeCase i o di pod) :
    coneRes i o di (pod / di.p) = .ok 0 ↔
      0 ≤ i.m ∧ ((o.p ≤ i.p ∧ Spec.Ellipse i o di pod) ∨ (i.p ≤ o.p ∧ Spec.MirroredEllipse i o di pod)) := by
  obtain ⟨hpi, hvi, hpo, hmd, hvd, hpod, hexp⟩ := h
  have hpd : 0 < di.p := lt_trans hpod hexp
  have hD : 0 < di.p ^ 2 - pod ^ 2 := by nlinarith
  have hq : 0 < 1 - (pod / di.p) ^ 2 := by
    have : 1 - (pod / di.p) ^ 2 = (di.p ^ 2 - pod ^ 2) / di.p ^ 2 := by field_simp
    rw [this]; positivity
  have hA : 0 < di.p * di.vol / (i.p * i.vol) := by positivity
  unfold coneRes
  rw [if_neg (by
    rintro (h | h | h | h)
    · exact hpd.ne' h
    · exact (mul_pos hpi hvi).ne' h
    · exact hpi.ne' h
    · exact hq.ne' h), if_neg (not_lt.2 hA.le)]
  rw [Except.ok.injEq, abs_div, abs_of_pos hq]
  set R := di.m * i.p / di.p * Real.sqrt (di.p * di.vol / (i.p * i.vol)) *
    Real.sqrt (|1 - (o.p / i.p) ^ 2| / (1 - (pod / di.p) ^ 2)) with hR
  have hR0 : 0 ≤ R := by rw [hR]; positivity
  have hE0 : 0 ≤ |1 - (o.p / i.p) ^ 2| / (1 - (pod / di.p) ^ 2) := by positivity
  have hR2 : R ^ 2 * ((i.p * i.vol) * (di.p ^ 2 - pod ^ 2)) = di.m ^ 2 * (di.p * di.vol) * |i.p ^ 2 - o.p ^ 2| := by
    have habs : |1 - (o.p / i.p) ^ 2| = |i.p ^ 2 - o.p ^ 2| / i.p ^ 2 := by
      rw [show 1 - (o.p / i.p) ^ 2 = (i.p ^ 2 - o.p ^ 2) / i.p ^ 2 by field_simp, abs_div, abs_of_pos (by positivity : 0 < i.p ^ 2)]
    have hqq : 1 - (pod / di.p) ^ 2 = (di.p ^ 2 - pod ^ 2) / di.p ^ 2 := by field_simp
    rw [hR, mul_pow, mul_pow, Real.sq_sqrt hA.le, Real.sq_sqrt hE0, habs, hqq]
    field_simp
  have key : -i.m + R = 0 ↔ 0 ≤ i.m ∧
      i.m ^ 2 * ((i.p * i.vol) * (di.p ^ 2 - pod ^ 2)) = di.m ^ 2 * (di.p * di.vol) * |i.p ^ 2 - o.p ^ 2| := by
    constructor
    · intro h'
      have : i.m = R := by linarith
      rw [this]
      exact ⟨hR0, hR2⟩
    · rintro ⟨hm, h'⟩
      rw [← hR2] at h'
      have hpos : (i.p * i.vol) * (di.p ^ 2 - pod ^ 2) ≠ 0 := by positivity
      have h2 := mul_right_cancel₀ hpos h'
      have := (sq_eq_sq₀ hm hR0).1 h2
      linarith
  rw [key]
  unfold Spec.Ellipse Spec.MirroredEllipse
  apply and_congr_right
  intro _
  rcases le_total o.p i.p with hle | hle
  · have habs : |i.p ^ 2 - o.p ^ 2| = i.p ^ 2 - o.p ^ 2 := abs_of_nonneg (by nlinarith)
    rw [habs]
    constructor
    · intro h'; exact .inl ⟨hle, by linarith⟩
    · rintro (⟨_, h'⟩ | ⟨hle', h'⟩)
      · linarith
      · have : i.p = o.p := le_antisymm hle' hle
        rw [this] at h' ⊢
        linarith
  · have habs : |i.p ^ 2 - o.p ^ 2| = o.p ^ 2 - i.p ^ 2 := by
      rw [abs_of_nonpos (by nlinarith)]; ring
    rw [habs]
    constructor
    · intro h'; exact .inr ⟨hle, by linarith⟩
    · rintro (⟨hle', h'⟩ | ⟨_, h'⟩)
      · have : i.p = o.p := le_antisymm hle hle'
        rw [this] at h' ⊢
        linarith
      · linarith

/-- C114: of two expansions in the same turbine with the same `p v` at the inlet (an ideal gas of the same temperature), the
one with the higher inlet pressure and the lower outlet pressure has the larger mass flow; the flow vanishes only at
equal pressures. -/
theorem C114_flow (i o i' o' : HStream) (di : HDesign) (pod : ℝ) (h : Spec.ConeCase i o di pod)
    (h' : Spec.ConeCase i' o' di pod) (he : o.p ≤ i.p) (he' : o'.p ≤ i'.p) (hpv : i.p * i.vol = i'.p * i'.vol)
    (hs : coneRes i o di (pod / di.p) = .ok 0) (hs' : coneRes i' o' di (pod / di.p) = .ok 0) :
    (i.p ≤ i'.p → o'.p ≤ o.p → i.m ≤ i'.m) ∧ (i.p < i'.p → o'.p ≤ o.p → i.m < i'.m) ∧
    (i.p ≤ i'.p → o'.p < o.p → i.m < i'.m) ∧ (i.m = 0 ↔ i.p = o.p) := by
  have hpd : 0 < di.p := lt_trans h.dOut h.expansion
  have hD : 0 < di.p ^ 2 - pod ^ 2 := by nlinarith [h.dOut, h.expansion]
  have hK : 0 < di.m ^ 2 * (di.p * di.vol) := by have := h.dM; have := h.dV; positivity
  have hL : 0 < (i.p * i.vol) * (di.p ^ 2 - pod ^ 2) := mul_pos (mul_pos h.inP h.inV) hD
  have ell : ∀ {i o : HStream}, Spec.ConeCase i o di pod → o.p ≤ i.p → coneRes i o di (pod / di.p) = .ok 0 →
      0 ≤ i.m ∧ Spec.Ellipse i o di pod := by
    intro i o h he hs
    obtain ⟨hm, ⟨_, h1⟩ | ⟨hle, h1⟩⟩ := (C114_ellipse_partial i o di pod h).1 hs
    · exact ⟨hm, h1⟩
    · refine ⟨hm, ?_⟩
      have hpp : i.p = o.p := le_antisymm hle he
      unfold Spec.MirroredEllipse at h1
      unfold Spec.Ellipse
      rw [hpp] at h1 ⊢
      linarith
  obtain ⟨hm, e1⟩ := ell h he hs
  obtain ⟨hm', e2⟩ := ell h' he' hs'
  unfold Spec.Ellipse at e1 e2
  rw [← hpv] at e2
  have step : ∀ {a b : ℝ}, 0 ≤ a → 0 ≤ b → a < b → a ^ 2 < b ^ 2 := fun ha _ hab => by nlinarith
  have hi := h.inP
  have hi' := h'.inP
  have ho := h.outP
  have ho' := h'.outP
  have sqle : i.p ^ 2 - o.p ^ 2 ≤ i'.p ^ 2 - o'.p ^ 2 → i.m ≤ i'.m := by
    intro hle
    by_contra hc
    have h1 := step hm' hm (not_le.1 hc)
    have h2 := mul_lt_mul_of_pos_right h1 hL
    have h3 := mul_le_mul_of_nonneg_left hle hK.le
    linarith
  have sqlt : i.p ^ 2 - o.p ^ 2 < i'.p ^ 2 - o'.p ^ 2 → i.m < i'.m := by
    intro hlt
    by_contra hc
    have h1 : i'.m ^ 2 ≤ i.m ^ 2 := pow_le_pow_left₀ hm' (not_lt.1 hc) 2
    have h2 := mul_le_mul_of_nonneg_right h1 hL.le
    have h3 := mul_lt_mul_of_pos_left hlt hK
    linarith
  refine ⟨fun a b => sqle (by nlinarith), fun a b => sqlt (by nlinarith), fun a b => sqlt (by nlinarith), ?_⟩
  constructor
  · intro h0
    rw [h0] at e1
    have : di.m ^ 2 * (di.p * di.vol) * (i.p ^ 2 - o.p ^ 2) = 0 := by linarith
    rcases mul_eq_zero.1 this with h1 | h1
    · exact absurd h1 hK.ne'
    · have : (i.p - o.p) * (i.p + o.p) = 0 := by linear_combination h1
      rcases mul_eq_zero.1 this with h2 | h2 <;> linarith
  · intro h0
    rw [h0] at e1
    have h1 : i.m ^ 2 * ((o.p * i.vol) * (di.p ^ 2 - pod ^ 2)) = 0 := by linear_combination e1
    rcases mul_eq_zero.1 h1 with h2 | h2
    · exact pow_eq_zero_iff (two_ne_zero) |>.1 h2
    · exact absurd h2 (mul_pos (mul_pos ho h.inV) hD).ne'

/-- C114: the inlet pressure follows from the mass flow. For every mass flow there is, at constant `p v` of the inlet, exactly
one inlet pressure not below the outlet pressure. -/
theorem C114_pressure (po pv m : ℝ) (di : HDesign) (pod : ℝ) (hpo : 0 < po) (hpv : 0 < pv) (hm : 0 ≤ m)
    (hmd : 0 < di.m) (hvd : 0 < di.vol) (hpod : 0 < pod) (hexp : pod < di.p) :
    ∃! p : ℝ, po ≤ p ∧ ∀ i o : HStream, i.m = m → i.p = p → i.vol = pv / p → o.p = po →
      coneRes i o di (pod / di.p) = .ok 0 := by
  have hpd : 0 < di.p := lt_trans hpod hexp
  have hD : 0 < di.p ^ 2 - pod ^ 2 := by nlinarith
  have hK : 0 < di.m ^ 2 * (di.p * di.vol) := by positivity
  set x := m ^ 2 * pv * (di.p ^ 2 - pod ^ 2) / (di.m ^ 2 * (di.p * di.vol)) with hx
  have hx0 : 0 ≤ x := by rw [hx]; positivity
  have hsq : po ^ 2 ≤ po ^ 2 + x := by linarith
  have hp0 : po ≤ Real.sqrt (po ^ 2 + x) := Real.le_sqrt_of_sq_le hsq
  have hps : 0 < Real.sqrt (po ^ 2 + x) := lt_of_lt_of_le hpo hp0
  have case : ∀ p, po ≤ p → ∀ i o : HStream, i.m = m → i.p = p → i.vol = pv / p → o.p = po →
      (Spec.ConeCase i o di pod ∧ i.p * i.vol = pv) := by
    intro p hp i o _ h2 h3 h4
    have hpp : 0 < p := lt_of_lt_of_le hpo hp
    refine ⟨⟨by rw [h2]; exact hpp, by rw [h3]; positivity, by rw [h4]; exact hpo, hmd, hvd, hpod, hexp⟩, ?_⟩
    rw [h2, h3]; field_simp
  refine ⟨Real.sqrt (po ^ 2 + x), ⟨hp0, ?_⟩, ?_⟩
  · intro i o h1 h2 h3 h4
    obtain ⟨hc, hpvi⟩ := case _ hp0 i o h1 h2 h3 h4
    rw [C114_ellipse_partial i o di pod hc]
    refine ⟨by rw [h1]; exact hm, .inl ⟨by rw [h2, h4]; exact hp0, ?_⟩⟩
    unfold Spec.Ellipse
    rw [hpvi, h1, h2, h4, Real.sq_sqrt (by positivity), hx]
    field_simp
    ring
  · rintro p ⟨hp, hall⟩
    have hpp : 0 < p := lt_of_lt_of_le hpo hp
    have hs := hall ⟨m, p, 0, 0, pv / p⟩ ⟨m, po, 0, 0, 1⟩ rfl rfl rfl rfl
    obtain ⟨hc, hpvi⟩ := case p hp ⟨m, p, 0, 0, pv / p⟩ ⟨m, po, 0, 0, 1⟩ rfl rfl rfl rfl
    obtain ⟨-, h1⟩ := (C114_ellipse_partial _ _ di pod hc).1 hs
    have hp2 : p ^ 2 = po ^ 2 + x := by
      rcases h1 with ⟨-, h1⟩ | ⟨hle, h1⟩
      · unfold Spec.Ellipse at h1
        rw [hpvi] at h1
        simp only at h1
        rw [hx]
        field_simp
        linear_combination -h1
      · have heq : p = po := le_antisymm hle hp
        unfold Spec.MirroredEllipse at h1
        rw [hpvi] at h1
        simp only at h1
        rw [heq, hx]
        rw [heq] at h1
        field_simp
        linear_combination -h1
    rw [← hp2, Real.sqrt_sq hpp.le]

/-- C114 is false without the condition on the pressures: a turbine with the mass flow of its design case, an expansion from 5
to 4, also satisfies the equation with the pressure rising from 4 to 5. -/
theorem C114_rising_false :
    ∃ (i o : HStream) (di : HDesign) (pod : ℝ), Spec.ConeCase i o di pod ∧ i.m = di.m ∧ i.p * i.vol = di.p * di.vol ∧
      coneRes i o di (pod / di.p) = .ok 0 ∧ i.p = 4 ∧ o.p = 5 := by
  have hc : Spec.ConeCase ⟨1, 4, 0, 0, 5⟩ ⟨1, 5, 0, 0, 1⟩ ⟨1, 5, 4, 4, 0⟩ 4 := by
    constructor <;> norm_num
  refine ⟨_, _, _, _, hc, rfl, by norm_num, ?_, rfl, rfl⟩
  rw [C114_ellipse_partial _ _ _ _ hc]
  refine ⟨by norm_num, .inr ⟨by norm_num, ?_⟩⟩
  unfold Spec.MirroredEllipse
  norm_num

-- non-vacuity: the design case, and a larger flow from a higher pressure
example : ∃ i o i' o' : HStream, ∃ di : HDesign, Spec.ConeCase i o di 4 ∧ Spec.ConeCase i' o' di 4 ∧ o.p ≤ i.p ∧ o'.p ≤ i'.p ∧
    i.p * i.vol = i'.p * i'.vol ∧ coneRes i o di (4 / di.p) = .ok 0 ∧ coneRes i' o' di (4 / di.p) = .ok 0 ∧ i.p < i'.p ∧
    i'.m = 4 / 3 := by
  have hd : Spec.ConeCase ⟨1, 5, 0, 0, 4⟩ ⟨1, 4, 0, 0, 1⟩ ⟨1, 5, 4, 4, 0⟩ 4 := by constructor <;> norm_num
  have hd2 : Spec.ConeCase ⟨4 / 3, 26 / 5, 0, 0, 50 / 13⟩ ⟨1, Real.sqrt (1104 / 100), 0, 0, 1⟩ ⟨1, 5, 4, 4, 0⟩ 4 := by
    constructor <;> norm_num
  have hle : Real.sqrt (1104 / 100) ≤ 26 / 5 := by
    rw [Real.sqrt_le_left (by norm_num)]; norm_num
  refine ⟨_, _, _, _, _, hd, hd2, by norm_num, hle, by norm_num, ?_, ?_, by norm_num, rfl⟩
  · rw [C114_ellipse_partial _ _ _ _ hd]
    refine ⟨by norm_num, .inl ⟨by norm_num, ?_⟩⟩
    unfold Spec.Ellipse; norm_num
  · rw [C114_ellipse_partial _ _ _ _ hd2]
    refine ⟨by norm_num, .inl ⟨hle, ?_⟩⟩
    unfold Spec.Ellipse
    rw [Real.sq_sqrt (by norm_num)]
    norm_num

end Tespy
