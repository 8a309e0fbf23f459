import Verif.Props.Solar
import Mathlib.Tactic.Linarith
import Mathlib.Tactic.FieldSimp
import Mathlib.Tactic.LinearCombination

/-!
C84: which outlet state a solar collector or parabolic trough with given radiation has.
-/
namespace Tespy

/-- Two states of a collector with the same flow and inlet; in the hotter one the fluid has the higher enthalpy. -/
structure Spec.SameInlet (c c' : SolarState) : Prop where
  flow : 0 < c.m
  m : c'.m = c.m
  hIn : c'.hIn = c.hIn
  TIn : c'.TIn = c.TIn
  rises : c'.TOut < c.TOut → c'.hOut < c.hOut

/-- The loss does not fall with the temperature above the ambient. -/
theorem thermalLoss_mono (lin quad a b : ℝ) (hl : 0 ≤ lin) (hq : 0 ≤ quad) (h0 : 0 ≤ a) (hab : a ≤ b) :
    Spec.thermalLoss lin quad a ≤ Spec.thermalLoss lin quad b := by
  unfold Spec.thermalLoss
  have hb : 0 ≤ b := le_trans h0 hab
  have h1 : lin + quad * a ≤ lin + quad * b := by
    have := mul_le_mul_of_nonneg_left hab hq
    linarith
  exact mul_le_mul h1 hab h0 (by have := mul_nonneg hq hb; linarith)

theorem solar_outlet_aux (c c' : SolarState) (hc : Spec.SameInlet c c') (A lin quad Tamb g g' : ℝ) (hA : 0 ≤ A)
    (hl : 0 ≤ lin) (hq : 0 ≤ quad) (hT' : Tamb ≤ Spec.meanT c') (hg : g ≤ g')
    (h : Spec.usefulHeat c = A * (g - Spec.thermalLoss lin quad (Spec.meanT c - Tamb)))
    (h' : Spec.usefulHeat c' = A * (g' - Spec.thermalLoss lin quad (Spec.meanT c' - Tamb))) :
    c.TOut ≤ c'.TOut := by
  by_contra hn
  have hlt := not_le.1 hn
  have hh := hc.rises hlt
  have hu : Spec.usefulHeat c' < Spec.usefulHeat c := by
    unfold Spec.usefulHeat
    rw [hc.m, hc.hIn]
    exact mul_lt_mul_of_pos_left (by linarith) hc.flow
  have hm : Spec.meanT c' ≤ Spec.meanT c := by
    unfold Spec.meanT
    rw [hc.TIn]
    linarith
  have hL := thermalLoss_mono lin quad (Spec.meanT c' - Tamb) (Spec.meanT c - Tamb) hl hq (by linarith) (by linarith)
  have : A * (g - Spec.thermalLoss lin quad (Spec.meanT c - Tamb))
      ≤ A * (g' - Spec.thermalLoss lin quad (Spec.meanT c' - Tamb)) := mul_le_mul_of_nonneg_left (by linarith) hA
  linarith

/-- C84: more radiation or a better absorption never leaves a colder outlet, for collectors not colder than the
ambient. -/
theorem C84_brighter (c c' : SolarState) (p p' : SolarParams) (hc : Spec.SameInlet c c') (hA : 0 ≤ p.A) (hl : 0 ≤ p.lin)
    (hq : 0 ≤ p.quad) (e1 : p'.A = p.A) (e2 : p'.lin = p.lin) (e3 : p'.quad = p.quad) (e4 : p'.Tamb = p.Tamb)
    (hE : p.E * p.etaOpt ≤ p'.E * p'.etaOpt) (hT : p.Tamb ≤ Spec.meanT c') (h : solarRes c p = 0)
    (h' : solarRes c' p' = 0) : c.TOut ≤ c'.TOut := by
  rw [solarRes_eq, sub_eq_zero] at h h'
  rw [e1, e2, e3, e4] at h'
  exact solar_outlet_aux c c' hc p.A p.lin p.quad p.Tamb _ _ hA hl hq hT hE h h'

/-- C84: flow, inlet and parameters of a solar collector not colder than the ambient leave one outlet temperature. -/
theorem C84_outlet_partial (c c' : SolarState) (p : SolarParams) (hc : Spec.SameInlet c c') (hc' : Spec.SameInlet c' c)
    (hA : 0 ≤ p.A) (hl : 0 ≤ p.lin) (hq : 0 ≤ p.quad) (hT : p.Tamb ≤ Spec.meanT c) (hT' : p.Tamb ≤ Spec.meanT c')
    (h : solarRes c p = 0) (h' : solarRes c' p = 0) : c.TOut = c'.TOut :=
  le_antisymm (C84_brighter c c' p p hc hA hl hq rfl rfl rfl rfl le_rfl hT' h h')
    (C84_brighter c' c p p hc' hA hl hq rfl rfl rfl rfl le_rfl hT h' h)

/-- C84: the same for parabolic troughs. -/
theorem C84_outlet_trough_partial (c c' : SolarState) (p : TroughParams) (hc : Spec.SameInlet c c')
    (hc' : Spec.SameInlet c' c) (hA : 0 ≤ p.A) (hl : 0 ≤ p.c1) (hq : 0 ≤ p.c2) (hT : p.Tamb ≤ Spec.meanT c)
    (hT' : p.Tamb ≤ Spec.meanT c') (h : troughRes c p = 0) (h' : troughRes c' p = 0) : c.TOut = c'.TOut := by
  rw [troughRes_eq, sub_eq_zero] at h h'
  exact le_antisymm (solar_outlet_aux c c' hc p.A p.c1 p.c2 p.Tamb _ _ hA hl hq hT' le_rfl h h')
    (solar_outlet_aux c' c hc' p.A p.c1 p.c2 p.Tamb _ _ hA hl hq hT le_rfl h' h)

/-- C84 is false for the outlet without the condition on the ambient: with a quadratic loss coefficient every solved
collector with a fluid of constant heat capacity has a second solution, colder than the ambient, because the quadratic
loss does not change its sign there. -/
theorem C84_second_outlet_false (c : SolarState) (p : SolarParams) (cp : ℝ) (hcp : 0 < cp) (hm : 0 < c.m) (hA : 0 < p.A)
    (hl : 0 ≤ p.lin) (hq : 0 < p.quad) (hT : p.Tamb ≤ Spec.meanT c) (hh : c.hOut - c.hIn = cp * (c.TOut - c.TIn))
    (h : solarRes c p = 0) :
    ∃ T, T < c.TOut ∧
      solarRes { c with TOut := T, hOut := c.hIn + cp * (T - c.TIn) } p = 0 ∧
      Spec.meanT { c with TOut := T, hOut := c.hIn + cp * (T - c.TIn) } < p.Tamb := by
  obtain ⟨m, hIn, hOut, TIn, TOut⟩ := c
  obtain ⟨E, A, eta, lin, quad, Tamb⟩ := p
  simp only [Spec.meanT] at *
  have hr : 0 < (2 * m * cp + A * lin) / (A * quad) := by
    have := mul_nonneg hA.le hl
    have := mul_pos hm hcp
    apply div_pos _ (mul_pos hA hq)
    linarith
  have hd : (2 * m * cp + A * lin) / (A * quad) * (A * quad) = 2 * m * cp + A * lin :=
    div_mul_cancel₀ _ (mul_pos hA hq).ne'
  refine ⟨4 * Tamb - 2 * TIn - TOut - 2 * ((2 * m * cp + A * lin) / (A * quad)), by linarith, ?_, by linarith⟩
  generalize (2 * m * cp + A * lin) / (A * quad) = r at *
  simp only [solarRes] at h ⊢
  rw [hh] at h
  have e : hIn + cp * (4 * Tamb - 2 * TIn - TOut - 2 * r - TIn) - hIn
      = cp * (4 * Tamb - 2 * TIn - TOut - 2 * r - TIn) := by ring
  rw [e]
  linear_combination h + (r + (TIn + TOut) - 2 * Tamb) * hd

-- non-vacuity: a collector that heats its fluid from 10 to 20 degrees
example : ∃ (c : SolarState) (p : SolarParams), 0 < c.m ∧ 0 < p.A ∧ 0 ≤ p.lin ∧ 0 < p.quad ∧ p.Tamb ≤ Spec.meanT c ∧
    c.hOut - c.hIn = 4 * (c.TOut - c.TIn) ∧ solarRes c p = 0 ∧ Spec.SameInlet c c := by
  refine ⟨⟨1, 40, 80, 10, 20⟩, ⟨90, 1, 1, 1, 9 / 5, 10⟩, by norm_num, by norm_num, by norm_num, by norm_num, ?_, by norm_num,
    ?_, ⟨by norm_num, rfl, rfl, rfl, fun h => absurd h (lt_irrefl _)⟩⟩
  · norm_num [Spec.meanT]
  · norm_num [solarRes]

end Tespy
