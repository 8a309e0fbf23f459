import Mathlib.Analysis.Calculus.Deriv.Pow
import Verif.Model.Solar
import Verif.Props.Reactors
import Verif.Props.ConnJacobian
import Verif.Props.JacobianExamples
/-!
C84: solar collectors and parabolic troughs.
-/
namespace Tespy

namespace Spec

/-- Mean temperature of the fluid. -/
noncomputable def meanT (c : SolarState) : ℝ := (c.TIn + c.TOut) / 2

/-- Heat given to the fluid. -/
def usefulHeat (c : SolarState) : ℝ := c.m * (c.hOut - c.hIn)

/-- Heat given to the ambient, per area: heat transfer coefficient `lin + quad · ΔT` times the temperature
difference to the ambient. -/
def thermalLoss (lin quad ΔT : ℝ) : ℝ := (lin + quad * ΔT) * ΔT

/-- Heat balance of a collector: incident radiation = useful heat + radiation not absorbed + thermal loss. -/
def SolarBalance (c : SolarState) (E A absorbed lin quad Tamb : ℝ) : Prop :=
  A * E = usefulHeat c + A * (E - absorbed) + A * thermalLoss lin quad (meanT c - Tamb)

/-- Incidence angle modifier. -/
def iam (p : TroughParams) : ℝ := 1 - p.iam1 * |p.aoi| - p.iam2 * p.aoi ^ 2

end Spec

/-- the residual as useful heat minus area times net flux -/
theorem solarRes_eq (c : SolarState) (p : SolarParams) :
    solarRes c p = Spec.usefulHeat c
      - p.A * (p.E * p.etaOpt - Spec.thermalLoss p.lin p.quad (Spec.meanT c - p.Tamb)) := by
  have : (1 / 2) * (c.TIn + c.TOut) = Spec.meanT c := by unfold Spec.meanT; ring
  simp only [solarRes, this, Spec.usefulHeat, Spec.thermalLoss]
  ring

/-- A parabolic trough is a collector with the irradiance reduced by cleanliness and incidence angle. -/
theorem troughRes_eq (c : SolarState) (p : TroughParams) :
    troughRes c p = Spec.usefulHeat c
      - p.A * (p.E * p.etaOpt * p.doc ^ (1.5 : ℝ) * Spec.iam p
        - Spec.thermalLoss p.c1 p.c2 (Spec.meanT c - p.Tamb)) := by
  have : (1 / 2) * (c.TIn + c.TOut) = Spec.meanT c := by unfold Spec.meanT; ring
  simp only [troughRes, this, Spec.usefulHeat, Spec.thermalLoss, Spec.iam]
  ring

/-- C84 (heat balance): the equation is satisfied exactly if the incident radiation is the sum of useful heat, radiation not
absorbed and thermal loss. -/
theorem C84_balance (c : SolarState) (p : SolarParams) (t : TroughParams) :
    (solarRes c p = 0 ↔ Spec.SolarBalance c p.E p.A (p.E * p.etaOpt) p.lin p.quad p.Tamb)
    ∧ (troughRes c t = 0 ↔
      Spec.SolarBalance c t.E t.A (t.E * t.etaOpt * t.doc ^ (1.5 : ℝ) * Spec.iam t) t.c1 t.c2 t.Tamb) := by
  constructor
  · rw [solarRes_eq, Spec.SolarBalance]
    constructor <;> intro h <;> linear_combination -h
  · rw [troughRes_eq, Spec.SolarBalance]
    constructor <;> intro h <;> linear_combination -h

/-- C84 (reported values): the heat is that of the fluid; with the energy group, `Q_loss` is the negative sum of the
radiation not absorbed and the thermal loss; without, its old value is kept and not a result. -/
theorem C84_reported (c : SolarState) (p : SolarParams) (old : LossPar) :
    (∀ b, (solarReport c p b old).1 = Spec.usefulHeat c)
    ∧ (solarRes c p = 0 → (solarReport c p true old).2
        = ⟨-(p.A * (p.E - p.E * p.etaOpt) + p.A * Spec.thermalLoss p.lin p.quad (Spec.meanT c - p.Tamb)), true⟩)
    ∧ (solarReport c p false old).2 = ⟨old.val, false⟩ := by
  refine ⟨fun _ => rfl, fun h => ?_, rfl⟩
  have hb := (C84_balance c p ⟨0, 0, 0, 0, 0, 0, 0, 0, 0, 0⟩).1.mp h
  unfold Spec.SolarBalance at hb
  have : (solarReport c p true old).2 = ⟨-(p.E * p.A - Spec.usefulHeat c), true⟩ := rfl
  rw [this]
  congr 1
  linear_combination hb * (-1 : ℝ)

/-- C84 (reported values of troughs). -/
theorem C84_reported_trough (c : SolarState) (p : TroughParams) (old : LossPar) :
    (∀ b, (troughReport c p b old).1 = Spec.usefulHeat c)
    ∧ (troughRes c p = 0 → (troughReport c p true old).2
        = ⟨-(p.A * (p.E - p.E * p.etaOpt * p.doc ^ (1.5 : ℝ) * Spec.iam p)
          + p.A * Spec.thermalLoss p.c1 p.c2 (Spec.meanT c - p.Tamb)), true⟩)
    ∧ (troughReport c p false old).2 = ⟨old.val, false⟩ := by
  refine ⟨fun _ => rfl, fun h => ?_, rfl⟩
  have hb := (C84_balance c ⟨0, 0, 0, 0, 0, 0⟩ p).2.mp h
  unfold Spec.SolarBalance at hb
  have : (troughReport c p true old).2 = ⟨-p.E * p.A + Spec.usefulHeat c, true⟩ := rfl
  rw [this]
  congr 1
  linear_combination hb * (-1 : ℝ)

theorem thermalLoss_nonneg (lin quad d : ℝ) (hl : 0 ≤ lin) (hq : 0 ≤ quad) (hd : 0 ≤ d) :
    0 ≤ Spec.thermalLoss lin quad d :=
  mul_nonneg (add_nonneg hl (mul_nonneg hq hd)) hd

/-- C84 (limit): with parameters within their bounds and a collector not colder than the ambient, the fluid gains
at most the absorbed radiation, which is at most the incident radiation; the reported `Q_loss` is not
positive (its bound is not violated). -/
theorem C84_limit (c : SolarState) (p : SolarParams) (old : LossPar) (h : solarRes c p = 0) (hE : 0 ≤ p.E) (hA : 0 ≤ p.A)
    (h1 : p.etaOpt ≤ 1) (hl : 0 ≤ p.lin) (hq : 0 ≤ p.quad) (hT : p.Tamb ≤ Spec.meanT c) :
    (solarReport c p true old).1 ≤ p.A * (p.E * p.etaOpt) ∧ p.A * (p.E * p.etaOpt) ≤ p.A * p.E
    ∧ (solarReport c p true old).2.val ≤ 0 := by
  have hL := thermalLoss_nonneg p.lin p.quad (Spec.meanT c - p.Tamb) hl hq (sub_nonneg.mpr hT)
  have h2 : p.A * (p.E * p.etaOpt) ≤ p.A * p.E :=
    mul_le_mul_of_nonneg_left (by nlinarith) hA
  have hAL := mul_nonneg hA hL
  rw [solarRes_eq] at h
  have hQ : Spec.usefulHeat c ≤ p.A * (p.E * p.etaOpt) := by nlinarith
  refine ⟨hQ, h2, ?_⟩
  change -(p.E * p.A - Spec.usefulHeat c) ≤ 0
  linarith [mul_comm p.E p.A]

/-- C84 (limit of troughs): the same for troughs with cleanliness at most 1 and incidence angle modifier in [0, 1]. -/
theorem C84_limit_trough (c : SolarState) (p : TroughParams) (old : LossPar) (h : troughRes c p = 0) (hE : 0 ≤ p.E) (hA : 0 ≤ p.A)
    (h0 : 0 ≤ p.etaOpt) (h1 : p.etaOpt ≤ 1) (hd0 : 0 ≤ p.doc) (hd1 : p.doc ≤ 1) (hi : Spec.iam p ≤ 1)
    (hi0 : 0 ≤ Spec.iam p)
    (hl : 0 ≤ p.c1) (hq : 0 ≤ p.c2) (hT : p.Tamb ≤ Spec.meanT c) :
    (troughReport c p true old).1 ≤ p.A * (p.E * p.etaOpt) ∧ p.A * (p.E * p.etaOpt) ≤ p.A * p.E
    ∧ (troughReport c p true old).2.val ≤ 0 := by
  have hL := thermalLoss_nonneg p.c1 p.c2 (Spec.meanT c - p.Tamb) hl hq (sub_nonneg.mpr hT)
  have h2 : p.A * (p.E * p.etaOpt) ≤ p.A * p.E :=
    mul_le_mul_of_nonneg_left (by nlinarith) hA
  have hAL := mul_nonneg hA hL
  have hp1 : p.doc ^ (1.5 : ℝ) ≤ 1 := Real.rpow_le_one hd0 hd1 (by norm_num)
  have hp0 : 0 ≤ p.doc ^ (1.5 : ℝ) := Real.rpow_nonneg hd0 _
  have hpi : p.doc ^ (1.5 : ℝ) * Spec.iam p ≤ 1 := mul_le_one₀ hp1 hi0 hi
  have hEe : 0 ≤ p.E * p.etaOpt := mul_nonneg hE h0
  have habs : p.A * (p.E * p.etaOpt * p.doc ^ (1.5 : ℝ) * Spec.iam p) ≤ p.A * (p.E * p.etaOpt) := by
    refine mul_le_mul_of_nonneg_left ?_ hA
    rw [mul_assoc (p.E * p.etaOpt)]
    exact mul_le_of_le_one_right hEe hpi
  rw [troughRes_eq] at h
  have hQ : Spec.usefulHeat c ≤ p.A * (p.E * p.etaOpt) := by nlinarith
  refine ⟨hQ, h2, ?_⟩
  change -p.E * p.A + Spec.usefulHeat c ≤ 0
  linarith [mul_comm p.E p.A]

/-- C84 (incidence angle): the modifier is in [0, 1] for all angles with |aoi| ≤ 90 if the coefficients are not negative and
`90 · iam_1 + 8100 · iam_2 ≤ 1`. -/
theorem C84_iam_partial (p : TroughParams) (h1 : 0 ≤ p.iam1) (h2 : 0 ≤ p.iam2) (ha : |p.aoi| ≤ 90)
    (h : 90 * p.iam1 + 8100 * p.iam2 ≤ 1) : 0 ≤ Spec.iam p ∧ Spec.iam p ≤ 1 := by
  have hsq : p.aoi ^ 2 = |p.aoi| ^ 2 := (sq_abs _).symm
  have h0 := abs_nonneg p.aoi
  unfold Spec.iam
  rw [hsq]
  constructor <;> nlinarith [mul_nonneg h1 h0, mul_nonneg h2 (sq_nonneg |p.aoi|), mul_le_mul_of_nonneg_left ha h1,
    mul_le_mul_of_nonneg_left (show |p.aoi| ^ 2 ≤ 8100 by nlinarith) h2]

/-- C84 is false for the incidence angle without such conditions: for every negative `iam_1` (as in the documentation) there are
angles at which more than the radiation incident on the aperture is absorbed by an ideal clean trough, and for every
`iam_2` with `90 · iam_1 + 8100 · iam_2 > 1` the absorbed radiation is negative at 90 degrees. -/
theorem C84_iam_false (E eta i1 i2 : ℝ) (hE : 0 < E) (he : 0 < eta) :
    (i1 < 0 → ∃ a, 0 < a ∧ a ≤ 90 ∧ ∀ A c1 c2 Tamb,
      E * eta < E * eta * (1 : ℝ) ^ (1.5 : ℝ) * Spec.iam ⟨E, A, eta, c1, c2, i1, i2, a, 1, Tamb⟩)
    ∧ (1 < 90 * i1 + 8100 * i2 → ∀ A c1 c2 Tamb,
      E * eta * (1 : ℝ) ^ (1.5 : ℝ) * Spec.iam ⟨E, A, eta, c1, c2, i1, i2, 90, 1, Tamb⟩ < 0) := by
  have hEe : 0 < E * eta := mul_pos hE he
  constructor
  · intro h1
    refine ⟨min 90 (-i1 / (|i2| + 1)), lt_min (by norm_num) (div_pos (by linarith) (by positivity)), min_le_left _ _,
      fun A c1 c2 Tamb => ?_⟩
    set a := min 90 (-i1 / (|i2| + 1)) with ha
    have ha0 : 0 < a := lt_min (by norm_num) (div_pos (by linarith) (by positivity))
    have ha1 : a * (|i2| + 1) ≤ -i1 := by
      rw [← le_div_iff₀ (by positivity)]
      exact min_le_right _ _
    rw [Real.one_rpow, mul_one]
    refine lt_mul_of_one_lt_right hEe ?_
    simp only [Spec.iam, abs_of_pos ha0]
    have hi : i2 * a ≤ |i2| * a := mul_le_mul_of_nonneg_right (le_abs_self _) ha0.le
    nlinarith
  · intro h A c1 c2 Tamb
    rw [Real.one_rpow, mul_one]
    refine mul_neg_of_pos_of_neg hEe ?_
    simp only [Spec.iam]
    rw [abs_of_pos (by norm_num : (0 : ℝ) < 90)]
    linarith

/-- C84 (direction of the heat loss): heat flows from hot to cold exactly if the collector is at ambient temperature or
its heat transfer coefficient `lin + quad · (T_m - T_amb)` is not negative. -/
theorem C84_loss_direction (lin quad d : ℝ) :
    0 ≤ Spec.thermalLoss lin quad d * d ↔ d = 0 ∨ 0 ≤ lin + quad * d := by
  unfold Spec.thermalLoss
  rw [show (lin + quad * d) * d * d = (lin + quad * d) * d ^ 2 by ring]
  constructor
  · intro h
    by_cases hd : d = 0
    · exact .inl hd
    · right
      have : 0 < d ^ 2 := by positivity
      by_contra hn
      nlinarith
  · rintro (rfl | h)
    · simp
    · exact mul_nonneg h (by positivity)

/-- C84 is false for cold collectors: for every collector with a quadratic coefficient and every ambient temperature, at all
mean temperatures more than `lin / quad` below the ambient, a solved collector loses heat to the warmer ambient: the fluid
gains less than the absorbed radiation. -/
theorem C84_cold_false (c : SolarState) (p : SolarParams) (h : solarRes c p = 0) (hA : 0 < p.A) (hq : 0 < p.quad)
    (hl : 0 ≤ p.lin) (hT : Spec.meanT c < p.Tamb - p.lin / p.quad) :
    Spec.meanT c < p.Tamb ∧ Spec.usefulHeat c < p.A * (p.E * p.etaOpt) := by
  have h0 : 0 ≤ p.lin / p.quad := div_nonneg hl hq.le
  have hd : Spec.meanT c - p.Tamb < 0 := by linarith
  refine ⟨by linarith, ?_⟩
  have hk : p.lin + p.quad * (Spec.meanT c - p.Tamb) < 0 := by
    have : p.quad * (Spec.meanT c - p.Tamb) < p.quad * (-(p.lin / p.quad)) :=
      mul_lt_mul_of_pos_left (by linarith) hq
    rw [mul_neg, mul_div_cancel₀ _ hq.ne'] at this
    linarith
  have hL : 0 < Spec.thermalLoss p.lin p.quad (Spec.meanT c - p.Tamb) := mul_pos_of_neg_of_neg hk hd
  rw [solarRes_eq] at h
  have := mul_pos hA hL
  nlinarith

/-- the net flux falls with the temperature -/
theorem thermalLoss_strictMono (lin quad a b : ℝ) (hl : 0 ≤ lin) (hq : 0 ≤ quad) (hp : 0 < lin ∨ 0 < quad)
    (ha : 0 ≤ a) (hab : a < b) : Spec.thermalLoss lin quad a < Spec.thermalLoss lin quad b := by
  unfold Spec.thermalLoss
  have : (lin + quad * b) * b - (lin + quad * a) * a = (b - a) * (lin + quad * (a + b)) := by ring
  have hb : 0 < b - a := by linarith
  have h2 : 0 < lin + quad * (a + b) := by
    rcases hp with h | h
    · have := mul_nonneg hq (show 0 ≤ a + b by linarith)
      linarith
    · have := mul_pos h (show 0 < a + b by linarith)
      linarith
  have := mul_pos hb h2
  linarith

/-- C84 (stagnation): a collector with irradiance and losses has exactly one stagnation temperature not below the ambient, i.e. a
mean temperature at which no heat is gained; below it (down to the ambient) every solved collector heats the fluid,
above it cools the fluid. -/
theorem C84_stagnation (p : SolarParams) (hE : 0 ≤ p.E * p.etaOpt) (hA : 0 < p.A) (hl : 0 ≤ p.lin) (hq : 0 ≤ p.quad)
    (hp : 0 < p.lin ∨ 0 < p.quad) :
    ∃! T, p.Tamb ≤ T ∧ ∀ c, solarRes c p = 0 → p.Tamb ≤ Spec.meanT c →
      ((Spec.usefulHeat c = 0 ↔ Spec.meanT c = T) ∧ (0 < Spec.usefulHeat c ↔ Spec.meanT c < T)) := by
  obtain ⟨d, hd0, hd⟩ : ∃ d, 0 ≤ d ∧ Spec.thermalLoss p.lin p.quad d = p.E * p.etaOpt := by
    by_cases hq0 : p.quad = 0
    · have hl0 : 0 < p.lin := by
        rcases hp with h | h
        · exact h
        · exact absurd hq0 h.ne'
      refine ⟨p.E * p.etaOpt / p.lin, div_nonneg hE hl0.le, ?_⟩
      rw [Spec.thermalLoss, hq0, zero_mul, add_zero, mul_div_cancel₀ _ hl0.ne']
    · have hq1 : 0 < p.quad := lt_of_le_of_ne hq (Ne.symm hq0)
      have hD : 0 ≤ p.lin ^ 2 + 4 * p.quad * (p.E * p.etaOpt) := by positivity
      have hs : p.lin ≤ Real.sqrt (p.lin ^ 2 + 4 * p.quad * (p.E * p.etaOpt)) :=
        Real.le_sqrt_of_sq_le (by nlinarith [mul_nonneg hq hE])
      have hs2 := Real.mul_self_sqrt hD
      set r := Real.sqrt (p.lin ^ 2 + 4 * p.quad * (p.E * p.etaOpt)) with hr
      refine ⟨(r - p.lin) / (2 * p.quad), div_nonneg (by linarith) (by positivity), ?_⟩
      rw [Spec.thermalLoss]
      have h2 : p.quad ≠ 0 := hq1.ne'
      field_simp
      linear_combination hs2
  have key : ∀ c, solarRes c p = 0 → p.Tamb ≤ Spec.meanT c →
      ((Spec.usefulHeat c = 0 ↔ Spec.meanT c = p.Tamb + d) ∧ (0 < Spec.usefulHeat c ↔ Spec.meanT c < p.Tamb + d)) := by
    intro c hc hT
    rw [solarRes_eq, ← hd] at hc
    have hu : Spec.usefulHeat c = p.A * (Spec.thermalLoss p.lin p.quad d
        - Spec.thermalLoss p.lin p.quad (Spec.meanT c - p.Tamb)) := by linear_combination hc
    rcases lt_trichotomy (Spec.meanT c - p.Tamb) d with h | h | h
    · have := thermalLoss_strictMono p.lin p.quad _ _ hl hq hp (sub_nonneg.mpr hT) h
      have hpos : 0 < Spec.usefulHeat c := by rw [hu]; exact mul_pos hA (by linarith)
      exact ⟨⟨fun h0 => absurd h0 hpos.ne', fun h0 => by linarith⟩, ⟨fun _ => by linarith, fun _ => hpos⟩⟩
    · have h0 : Spec.usefulHeat c = 0 := by rw [hu, h]; ring
      exact ⟨⟨fun _ => by linarith, fun _ => h0⟩, ⟨fun h1 => absurd h0 h1.ne', fun _ => by linarith⟩⟩
    · have := thermalLoss_strictMono p.lin p.quad _ _ hl hq hp hd0 h
      have hneg : Spec.usefulHeat c < 0 := by rw [hu]; exact mul_neg_of_pos_of_neg hA (by linarith)
      exact ⟨⟨fun h0 => absurd h0 hneg.ne, fun h0 => by linarith⟩, ⟨fun h1 => absurd h1 (by linarith), fun _ => by linarith⟩⟩
  refine ⟨p.Tamb + d, ⟨by linarith, key⟩, ?_⟩
  rintro T ⟨hT, hTk⟩
  -- a solved collector at the temperature T
  have hc : solarRes ⟨1, 0, p.A * (p.E * p.etaOpt - Spec.thermalLoss p.lin p.quad (p.Tamb + d - p.Tamb)), p.Tamb + d,
      p.Tamb + d⟩ p = 0 := by
    rw [solarRes_eq]
    simp only [Spec.usefulHeat, Spec.meanT, add_self_div_two]
    ring
  have hm : Spec.meanT ⟨1, 0, p.A * (p.E * p.etaOpt - Spec.thermalLoss p.lin p.quad (p.Tamb + d - p.Tamb)), p.Tamb + d,
      p.Tamb + d⟩ = p.Tamb + d := by simp only [Spec.meanT, add_self_div_two]
  have h1 := (hTk _ hc (by rw [hm]; linarith)).1
  have h2 := (key _ hc (by rw [hm]; linarith)).1
  rw [hm] at h1 h2
  exact (h1.mp (h2.mpr rfl)).symm

/-- C84 (area): with given states there is exactly one collector area which satisfies the equation, unless absorbed radiation and thermal loss
balance; it is positive exactly if heat and net flux have the same sign. -/
theorem C84_area (c : SolarState) (p : SolarParams)
    (h : p.E * p.etaOpt ≠ Spec.thermalLoss p.lin p.quad (Spec.meanT c - p.Tamb)) :
    ∃! A, solarRes c { p with A := A } = 0
      ∧ (0 < A ↔ 0 < Spec.usefulHeat c
        * (p.E * p.etaOpt - Spec.thermalLoss p.lin p.quad (Spec.meanT c - p.Tamb))) := by
  have hn : p.E * p.etaOpt - Spec.thermalLoss p.lin p.quad (Spec.meanT c - p.Tamb) ≠ 0 := sub_ne_zero.mpr h
  set n := p.E * p.etaOpt - Spec.thermalLoss p.lin p.quad (Spec.meanT c - p.Tamb) with hnd
  have hres : ∀ A, solarRes c { p with A := A } = Spec.usefulHeat c - A * n := fun A => solarRes_eq c _
  refine ⟨Spec.usefulHeat c / n, ⟨?_, ?_⟩, ?_⟩
  · change solarRes c { p with A := _ } = 0
    rw [hres, div_mul_cancel₀ _ hn, sub_self]
  · have hn2 : 0 < n ^ 2 := by positivity
    have : Spec.usefulHeat c * n = Spec.usefulHeat c / n * n ^ 2 := by field_simp
    rw [this]
    exact (mul_pos_iff_of_pos_right hn2).symm
  · rintro A ⟨hA, -⟩
    rw [hres] at hA
    rw [eq_div_iff hn]
    linarith

/-! ### Derivatives -/

/-- The residual of the collector in the equation system. -/
noncomputable def Spec.solarF (tPH : (String → ℝ) → ℝ → ℝ → ℝ) (Tamb : ℝ) (i o : Port) (s : EqState ℝ) : ℝ :=
  solarRes (solarOf tPH Tamb s i o).1 (solarOf tPH Tamb s i o).2

/-- what is written -/
noncomputable def solarWritten (tPH : (String → ℝ) → ℝ → ℝ → ℝ) (Tamb δp δh : ℝ) (δpar : String → ℝ) (s : EqState ℝ)
    (i o : Port) : List (Var × ℝ) :=
  let f := Spec.solarF tPH Tamb i o
  [(.m i.m, s.hv o - s.hv i), (.p i.p, centralDiff f s (.p i.p) δp), (.h i.h, centralDiff f s (.h i.h) δh),
    (.p o.p, centralDiff f s (.p o.p) δp), (.h o.h, centralDiff f s (.h o.h) δh),
    (.par "E", centralDiff f s (.par "E") (δpar "E")),
    (.par "eta_opt", centralDiff f s (.par "eta_opt") (δpar "eta_opt")),
    (.par "lkf_lin", centralDiff f s (.par "lkf_lin") (δpar "lkf_lin")),
    (.par "lkf_quad", centralDiff f s (.par "lkf_quad") (δpar "lkf_quad")),
    (.par "A", centralDiff f s (.par "A") (δpar "A"))]

theorem solarD_wrs (tPH : (String → ℝ) → ℝ → ℝ → ℝ) (Tamb δp δh : ℝ) (δpar : String → ℝ) (s : EqState ℝ)
    (i o : Port) (k : ℕ) :
    solarD tPH Tamb δp δh δpar s i o k = wrs s k (solarWritten tPH Tamb δp δh δpar s i o) := by
  simp only [solarD, solarWritten, wrs, List.flatMap_cons, List.flatMap_nil, List.append_nil, List.append_assoc]
  rfl

/-- entry of a variable which is written once -/
theorem solarD_entry (tPH : (String → ℝ) → ℝ → ℝ → ℝ) (Tamb δp δh : ℝ) (δpar : String → ℝ) (s : EqState ℝ)
    (hc : Spec.ColsInjective s) (i o : Port) (k : ℕ) (v : Var) (hv : s.isVar v = true) :
    entry (solarD tPH Tamb δp δh δpar s i o k) k (s.col v)
      = lastOf (solarWritten tPH Tamb δp δh δpar s i o) v 0 := by
  rw [solarD_wrs]
  exact entryFrom_wrs s hc k _ v hv 0

/-- The parameters of the energy group which can be variables. -/
def Spec.solarPars : List String := ["E", "eta_opt", "lkf_lin", "lkf_quad", "A"]

theorem solar_mv (s : EqState ℝ) (v : Var) (t : ℝ) (c : Port) (h : v ≠ .m c.m) : (s.put v t).mv c = s.mv c :=
  put_val_ne s _ v t (fun e => h e.symm)

theorem solar_pv (s : EqState ℝ) (v : Var) (t : ℝ) (c : Port) (h : v ≠ .p c.p) : (s.put v t).pv c = s.pv c :=
  put_val_ne s _ v t (fun e => h e.symm)

theorem solar_hv (s : EqState ℝ) (v : Var) (t : ℝ) (c : Port) (h : v ≠ .h c.h) : (s.put v t).hv c = s.hv c :=
  put_val_ne s _ v t (fun e => h e.symm)

theorem solar_par (s : EqState ℝ) (n m : String) (t : ℝ) :
    (s.put (.par n) t).val (.par m) = if m = n then t else s.val (.par m) := by
  split
  · next h => subst h; exact put_val_self s _ t
  · next h => exact put_val_ne s _ _ t (by simpa using h)

/-- the residual with a parameter replaced -/
theorem solarF_par (tPH : (String → ℝ) → ℝ → ℝ → ℝ) (Tamb : ℝ) (i o : Port) (s : EqState ℝ) (n : String) (t : ℝ) :
    Spec.solarF tPH Tamb i o (s.put (.par n) t) = solarRes (solarOf tPH Tamb s i o).1
      ⟨if "E" = n then t else s.val (.par "E"), if "A" = n then t else s.val (.par "A"),
       if "eta_opt" = n then t else s.val (.par "eta_opt"), if "lkf_lin" = n then t else s.val (.par "lkf_lin"),
       if "lkf_quad" = n then t else s.val (.par "lkf_quad"), Tamb⟩ := by
  unfold Spec.solarF solarOf
  simp only [solar_par, solar_mv _ (.par n) t _ (by simp), solar_pv _ (.par n) t _ (by simp),
    solar_hv _ (.par n) t _ (by simp), put_xv s i (.par n) t (by simp), put_xv s o (.par n) t (by simp)]

/-- C84 (derivatives): the entries of mass flow and parameters are the partial derivatives, the entries of pressures and
enthalpies are central differences with the given increments. Full statement: the row holds the partial
derivatives for all variables; the entries of pressure and enthalpy are approximations, those of variable compositions are missing
(`C84_composition_false`). -/
theorem C84_derivative_partial (tPH : (String → ℝ) → ℝ → ℝ → ℝ) (Tamb δp δh : ℝ) (δpar : String → ℝ)
    (s : EqState ℝ) (hc : Spec.ColsInjective s) (i o : Port) (k : ℕ) (hδ : ∀ n, δpar n ≠ 0) :
    (∀ v, s.isVar v = true → (v = .m i.m ∨ ∃ n ∈ Spec.solarPars, v = .par n) →
      HasDerivAt (fun t => Spec.solarF tPH Tamb i o (s.put v t))
        (entry (solarD tPH Tamb δp δh δpar s i o k) k (s.col v)) (s.val v))
    ∧ (∀ v ∈ [Var.p i.p, .p o.p], s.isVar v = true → entry (solarD tPH Tamb δp δh δpar s i o k) k (s.col v)
        = (Spec.solarF tPH Tamb i o (s.put v (s.val v + δp)) - Spec.solarF tPH Tamb i o (s.put v (s.val v - δp)))
          / (2 * δp))
    ∧ (∀ v ∈ [Var.h i.h, .h o.h], s.isVar v = true → entry (solarD tPH Tamb δp δh δpar s i o k) k (s.col v)
        = (Spec.solarF tPH Tamb i o (s.put v (s.val v + δh)) - Spec.solarF tPH Tamb i o (s.put v (s.val v - δh)))
          / (2 * δh)) := by
  refine ⟨fun v hv hcase => ?_, fun v hmem hv => ?_, fun v hmem hv => ?_⟩
  · rw [solarD_entry _ _ _ _ _ _ hc _ _ _ _ hv]
    rcases hcase with rfl | ⟨n, hn, rfl⟩
    · have hl : lastOf (solarWritten tPH Tamb δp δh δpar s i o) (.m i.m) 0 = s.hv o - s.hv i := by
        simp [solarWritten, lastOf]
      rw [hl]
      have hfun : (fun t => Spec.solarF tPH Tamb i o (s.put (.m i.m) t))
          = fun t => t * (s.hv o - s.hv i) - (s.mv i * (s.hv o - s.hv i) - Spec.solarF tPH Tamb i o s) := by
        funext t
        unfold Spec.solarF solarOf
        have hm : (s.put (.m i.m) t).mv i = t := put_val_self s _ t
        simp only [hm, solar_pv _ (.m i.m) t _ (by simp),
          solar_hv _ (.m i.m) t _ (by simp), put_xv s i (.m i.m) t (by simp), put_xv s o (.m i.m) t (by simp),
          put_val_ne s (.par "E") (.m i.m) t (by simp), put_val_ne s (.par "A") (.m i.m) t (by simp),
          put_val_ne s (.par "eta_opt") (.m i.m) t (by simp), put_val_ne s (.par "lkf_lin") (.m i.m) t (by simp),
          put_val_ne s (.par "lkf_quad") (.m i.m) t (by simp)]
        unfold solarRes
        ring
      rw [hfun]
      simpa using ((hasDerivAt_id' (s.val (.m i.m))).mul_const (s.hv o - s.hv i)).sub_const
        (s.mv i * (s.hv o - s.hv i) - Spec.solarF tPH Tamb i o s)
    · have hl : lastOf (solarWritten tPH Tamb δp δh δpar s i o) (.par n) 0
          = centralDiff (Spec.solarF tPH Tamb i o) s (.par n) (δpar n) := by
        simp only [Spec.solarPars, List.mem_cons, List.not_mem_nil, or_false] at hn
        rcases hn with rfl | rfl | rfl | rfl | rfl <;> simp [solarWritten, lastOf]
      have hA : Aff s (.par n) (Spec.solarF tPH Tamb i o) := by
        unfold Aff
        simp only [solarF_par]
        set q := solarOf tPH Tamb s i o with hq
        simp only [Spec.solarPars, List.mem_cons, List.not_mem_nil, or_false] at hn
        simp only [solarRes_eq]
        set d := Spec.meanT q.1 - Tamb with hd
        set u := Spec.usefulHeat q.1 with hu
        set E := s.val (.par "E")
        set A := s.val (.par "A")
        set η := s.val (.par "eta_opt")
        set l := s.val (.par "lkf_lin")
        set r := s.val (.par "lkf_quad")
        rcases hn with rfl | rfl | rfl | rfl | rfl
        · refine ⟨u + A * Spec.thermalLoss l r d, -(A * η), fun t => ?_⟩
          simp
          ring
        · refine ⟨u + A * Spec.thermalLoss l r d, -(A * E), fun t => ?_⟩
          simp
          ring
        · refine ⟨u - A * (E * η) + A * (r * d ^ 2), A * d, fun t => ?_⟩
          simp [Spec.thermalLoss]
          ring
        · refine ⟨u - A * (E * η) + A * (l * d), A * d ^ 2, fun t => ?_⟩
          simp [Spec.thermalLoss]
          ring
        · refine ⟨u, -(E * η - Spec.thermalLoss l r d), fun t => ?_⟩
          simp
          ring
      rw [hl]
      obtain ⟨a, b, hab⟩ := id hA
      have hb : HasDerivAt (fun t => Spec.solarF tPH Tamb i o (s.put (.par n) t)) b (s.val (.par n)) := by
        rw [show (fun t => Spec.solarF tPH Tamb i o (s.put (.par n) t)) = fun t => a + b * t from funext hab]
        simpa using ((hasDerivAt_id' (s.val (.par n))).const_mul b).const_add a
      rw [centralDiff_aff hA (δpar n) b (hδ n) hb]
      exact hb
  · rw [solarD_entry _ _ _ _ _ _ hc _ _ _ _ hv]
    change _ = centralDiff (Spec.solarF tPH Tamb i o) s v δp
    simp only [List.mem_cons, List.not_mem_nil, or_false] at hmem
    rcases hmem with rfl | rfl
    · by_cases h : o.p = i.p <;> simp [solarWritten, lastOf, h]
    · simp [solarWritten, lastOf]
  · rw [solarD_entry _ _ _ _ _ _ hc _ _ _ _ hv]
    change _ = centralDiff (Spec.solarF tPH Tamb i o) s v δh
    simp only [List.mem_cons, List.not_mem_nil, or_false] at hmem
    rcases hmem with rfl | rfl
    · by_cases h : o.h = i.h <;> simp [solarWritten, lastOf, h]
    · simp [solarWritten, lastOf]

/-- C84 is false for variable compositions: the entry is 0; if the mean temperature depends on the mass fraction (derivative
`D`), the partial derivative is `A · (lin + 2 · quad · (T_m - T_amb)) · D`. -/
theorem C84_composition_false (tPH : (String → ℝ) → ℝ → ℝ → ℝ) (Tamb δp δh : ℝ) (δpar : String → ℝ)
    (s : EqState ℝ) (hc : Spec.ColsInjective s) (i o : Port) (j : ℕ) (x : String) (hv : s.isVar (.x j x) = true)
    (D : ℝ) (hD : HasDerivAt (fun t => Spec.meanT (solarOf tPH Tamb (s.put (.x j x) t) i o).1) D (s.val (.x j x)))
    (hD0 : D ≠ 0) (hA : s.val (.par "A") ≠ 0)
    (hl : s.val (.par "lkf_lin") + 2 * s.val (.par "lkf_quad") * (Spec.meanT (solarOf tPH Tamb s i o).1 - Tamb) ≠ 0) :
    (∀ k, entry (solarD tPH Tamb δp δh δpar s i o k) k (s.col (.x j x)) = 0)
    ∧ HasDerivAt (fun t => Spec.solarF tPH Tamb i o (s.put (.x j x) t))
      (s.val (.par "A") * (s.val (.par "lkf_lin")
        + 2 * s.val (.par "lkf_quad") * (Spec.meanT (solarOf tPH Tamb s i o).1 - Tamb)) * D) (s.val (.x j x))
    ∧ ¬ Spec.IsJacobian (fun s => [Spec.solarF tPH Tamb i o s])
      (fun s k => solarD tPH Tamb δp δh δpar s i o k) s := by
  have h0 : ∀ k, entry (solarD tPH Tamb δp δh δpar s i o k) k (s.col (.x j x)) = 0 := by
    intro k
    rw [solarD_entry _ _ _ _ _ _ hc _ _ _ _ hv]
    exact lastOf_notMem _ _ _ (by simp [solarWritten])
  have hself : s.put (.x j x) (s.val (.x j x)) = s := by
    simp [EqState.put]
  set A := s.val (.par "A") with hAd
  set E := s.val (.par "E") with hEd
  set η := s.val (.par "eta_opt") with hηd
  set l := s.val (.par "lkf_lin") with hld
  set r := s.val (.par "lkf_quad") with hrd
  have hfun : (fun t => Spec.solarF tPH Tamb i o (s.put (.x j x) t))
      = fun t => s.mv i * (s.hv o - s.hv i) - A * (E * η
        - (l * (Spec.meanT (solarOf tPH Tamb (s.put (.x j x) t) i o).1 - Tamb)
          + r * (Spec.meanT (solarOf tPH Tamb (s.put (.x j x) t) i o).1 - Tamb) ^ 2)) := by
    funext t
    rw [Spec.solarF, solarRes_eq]
    have e : ∀ n, (s.put (.x j x) t).val (.par n) = s.val (.par n) := fun n => put_val_ne s _ _ t (by simp)
    have hu : Spec.usefulHeat (solarOf tPH Tamb (s.put (.x j x) t) i o).1 = s.mv i * (s.hv o - s.hv i) := by
      simp only [Spec.usefulHeat, solarOf, solar_mv _ (.x j x) t _ (by simp), solar_hv _ (.x j x) t _ (by simp)]
    rw [hu]
    simp only [Spec.thermalLoss]
    simp only [show (solarOf tPH Tamb (s.put (.x j x) t) i o).2 = ⟨E, A, η, l, r, Tamb⟩ by simp [solarOf, e, hAd, hEd, hηd, hld, hrd]]
    ring
  have hder : HasDerivAt (fun t => Spec.solarF tPH Tamb i o (s.put (.x j x) t))
      (A * (l + 2 * r * (Spec.meanT (solarOf tPH Tamb s i o).1 - Tamb)) * D) (s.val (.x j x)) := by
    rw [hfun]
    have h1 := hD.sub_const Tamb
    have h2 := ((h1.const_mul l).add ((h1.pow 2).const_mul r)).const_sub (E * η)
    have h3 := (h2.const_mul A).const_sub (s.mv i * (s.hv o - s.hv i))
    refine h3.congr_deriv ?_
    rw [hself]
    simp
    ring
  refine ⟨h0, hder, fun hJ => ?_⟩
  have h1 := (hJ 0).2 0 (by simp) (.x j x) hv
  simp only [List.getD_cons_zero] at h1
  have h2 := h1.unique hder
  have h3 := h0 0
  simp only [Nat.add_zero] at h2
  rw [h3] at h2
  exact mul_ne_zero (mul_ne_zero hA hl) hD0 h2.symm

/-! ### Examples -/

/-- The collector of the documentation with round numbers: 15 m², 800 W/m², 40 to 90 °C, ambient 25 °C. -/
noncomputable def solarParEx : SolarParams := ⟨800, 15, 92 / 100, 1, 5 / 1000, 298⟩
/-- Its states: net flux 736 - 40 - 8 = 688 W/m², heat 10 320 W. -/
noncomputable def solarStEx : SolarState := ⟨1 / 20, 168000, 374400, 313, 363⟩

theorem solarEx_solved : solarRes solarStEx solarParEx = 0 := by
  norm_num [solarRes, solarStEx, solarParEx]

/-- `C84_balance`, `C84_reported`, `C84_limit` and `C84_area` apply. -/
example : solarRes solarStEx solarParEx = 0 ∧ solarParEx.Tamb ≤ Spec.meanT solarStEx
    ∧ 0 ≤ solarParEx.E ∧ 0 ≤ solarParEx.A ∧ solarParEx.etaOpt ≤ 1 ∧ 0 ≤ solarParEx.lin ∧ 0 ≤ solarParEx.quad
    ∧ solarParEx.E * solarParEx.etaOpt
      ≠ Spec.thermalLoss solarParEx.lin solarParEx.quad (Spec.meanT solarStEx - solarParEx.Tamb) := by
  refine ⟨solarEx_solved, ?_, ?_, ?_, ?_, ?_, ?_, ?_⟩ <;>
    norm_num [solarParEx, solarStEx, Spec.meanT, Spec.thermalLoss]

/-- `C84_stagnation` applies, and the collector of the example is below its stagnation temperature. -/
example : ∃ T, 338 < T ∧ ∀ c, solarRes c solarParEx = 0 → 298 ≤ Spec.meanT c →
    (0 < Spec.usefulHeat c ↔ Spec.meanT c < T) := by
  obtain ⟨T, ⟨-, h⟩, -⟩ := C84_stagnation solarParEx (by norm_num [solarParEx]) (by norm_num [solarParEx])
    (by norm_num [solarParEx]) (by norm_num [solarParEx]) (.inl (by norm_num [solarParEx]))
  refine ⟨T, ?_, fun c hc hT => (h c hc hT).2⟩
  have := (h solarStEx solarEx_solved (by norm_num [solarParEx, solarStEx, Spec.meanT])).2.mp
    (by norm_num [Spec.usefulHeat, solarStEx])
  have e : Spec.meanT solarStEx = 338 := by norm_num [solarStEx, Spec.meanT]
  rwa [e] at this

/-- `C84_cold_false` applies: 1 W/(m² K) and 0.62 W/(m² K²), fluid 50 K below the ambient. -/
example : ∃ c p, solarRes c p = 0 ∧ 0 < p.A ∧ 0 < p.quad ∧ 0 ≤ p.lin ∧ Spec.meanT c < p.Tamb - p.lin / p.quad := by
  refine ⟨⟨1, 0, -1500, 248, 248⟩, ⟨0, 1, 9 / 10, 1, 62 / 100, 298⟩, ?_, ?_, ?_, ?_, ?_⟩ <;>
    norm_num [solarRes, Spec.meanT]

/-- `C84_limit_trough` and `C84_iam_partial` apply: a clean trough at normal incidence and one at 30 degrees. -/
example : troughRes ⟨1, 0, 688 * 15, 313, 363⟩ ⟨800, 15, 92 / 100, 1, 5 / 1000, 1 / 1000, 1 / 10000, 0, 1, 298⟩ = 0
    ∧ Spec.iam ⟨800, 15, 92 / 100, 1, 5 / 1000, 1 / 1000, 1 / 10000, 30, 1, 298⟩ = 88 / 100
    ∧ 90 * (1 / 1000) + 8100 * (1 / 10000) ≤ (1 : ℝ) ∧ |(30 : ℝ)| ≤ 90 := by
  refine ⟨?_, ?_, ?_, ?_⟩
  · simp only [troughRes, Real.one_rpow]
    norm_num
  · norm_num [Spec.iam, abs_of_pos]
  · norm_num
  · norm_num [abs_of_pos]

/-- `C84_derivative_partial` applies: all mass flows, pressures and enthalpies are variables; `C84_composition_false` applies
with the property function of the examples and a composition which both connections share. -/
example : Spec.ColsInjective jacState ∧ jacState.isVar (.m 1) = true ∧ jacState.isVar (.x 11 "N2") = true
    ∧ jacState.val (.par "A") ≠ 0
    ∧ HasDerivAt (fun t => Spec.meanT (solarOf jacFuncs.tPH 0 (jacState.put (.x 11 "N2") t)
        ⟨1, 1, 1, 11⟩ ⟨1, 2, 2, 11⟩).1) 8 (jacState.val (.x 11 "N2"))
    ∧ jacState.val (.par "lkf_lin") + 2 * jacState.val (.par "lkf_quad")
      * (Spec.meanT (solarOf jacFuncs.tPH 0 jacState ⟨1, 1, 1, 11⟩ ⟨1, 2, 2, 11⟩).1 - 0) ≠ 0 := by
  refine ⟨jacState_cols, by simp [jacState], by simp [jacState], by norm_num [jacState], ?_, ?_⟩
  · have : (fun t => Spec.meanT (solarOf jacFuncs.tPH 0 (jacState.put (.x 11 "N2") t) ⟨1, 1, 1, 11⟩ ⟨1, 2, 2, 11⟩).1)
        = fun t => 8 * t + Spec.meanT (solarOf jacFuncs.tPH 0 (jacState.put (.x 11 "N2") 0) ⟨1, 1, 1, 11⟩
          ⟨1, 2, 2, 11⟩).1 := by
      funext t
      simp [Spec.meanT, solarOf, jacFuncs, EqState.put, EqState.xv, EqState.pv, EqState.hv]
      ring
    rw [this]
    simpa using ((hasDerivAt_id' (jacState.val (.x 11 "N2"))).const_mul 8).add_const
      (Spec.meanT (solarOf jacFuncs.tPH 0 (jacState.put (.x 11 "N2") 0) ⟨1, 1, 1, 11⟩ ⟨1, 2, 2, 11⟩).1)
  · norm_num [Spec.meanT, solarOf, jacFuncs, EqState.xv, EqState.pv, EqState.hv, jacState]

end Tespy
