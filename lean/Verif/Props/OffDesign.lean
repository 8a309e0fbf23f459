import Verif.Props.Reported
import Verif.Props.CharLine

/-!
C41: off-design equations of turbomachines and heat exchangers, at the design point and at
every other load.
-/
namespace Tespy

/-- The design data of a connection whose design state is `c`: the reported values of the design
calculation (`v` is the volumetric flow `m · vol`, connection.py 940). -/
def designOf (c : HStream) : HDesign := ⟨c.m, c.p, c.m * c.vol, c.vol, c.T⟩

/-- At the design state every load expression is 1. -/
theorem C41_load_one (p : CharParam) (i o : HStream) (hp : p ≠ .other) (him : i.m ≠ 0)
    (hom : o.m ≠ 0) (hv : i.vol ≠ 0) (hip : i.p ≠ 0) (hop : o.p ≠ 0) :
    charExprRel p i o (designOf i) (designOf o) = .ok 1 := by
  cases p with
  | m => simp [charExprRel, designOf, rdiv, him]
  | mOut => simp [charExprRel, designOf, rdiv, hom]
  | v => simp [charExprRel, designOf, rdiv, him, hv]
  | pr =>
    show rdiv (o.p * i.p) (i.p * o.p) = .ok 1
    rw [rdiv_of_ne (mul_ne_zero hip hop), mul_comm o.p i.p, div_self (mul_ne_zero hip hop)]
  | other => exact absurd rfl hp

/-- C41, isentropic efficiency characteristics, any load: the equation of pumps, compressors and
turbines is satisfied if and only if the reported efficiency is the design efficiency times the
characteristic at the current load. -/
theorem C41_eta_s_char (f : ℝ → PyRes ℝ) (p : CharParam) (i o : HStream) (di d_o : HDesign)
    (his etaD x c r : ℝ) (hx : charExprRel p i o di d_o = .ok x) (hx0 : x ≠ 0) (hf : f x = .ok c) :
    (pumpEtaReported i o his = .ok r →
      (pumpEtaCharRes f p i o di d_o his etaD = .ok 0 ↔ r = etaD * c)) ∧
    (turbineEtaReported i o his = .ok r →
      (turbineEtaCharRes f p i o di d_o his etaD = .ok 0 ↔ r = etaD * c)) := by
  constructor
  · intro h
    obtain ⟨h0, rfl⟩ := rdiv_ok h
    unfold pumpEtaCharRes charFactor
    rw [hx]
    simp only [if_neg hx0, hf, Except.ok.injEq]
    rw [div_eq_iff h0]
    constructor <;> intro h <;> linarith
  · intro h
    obtain ⟨h0, rfl⟩ := rdiv_ok h
    unfold turbineEtaCharRes charFactor
    rw [hx]
    simp only [if_neg hx0, hf, Except.ok.injEq]
    rw [div_eq_iff h0]
    constructor <;> intro h <;> linarith

/-- C41, isentropic efficiency characteristics at the design point: with the reported efficiency of
the design calculation and a characteristic line through (1, 1) the off-design equation is
satisfied by the design state. -/
theorem C41_eta_s_design (line : CharLine ℝ) (hvalid : line.Valid) (hn : 2 ≤ line.x.length)
    (k : ℕ) (hk : k < line.x.length) (hx : line.x[k] = 1)
    (hy : line.y[k]'(by rw [hvalid.len]; exact hk) = 1)
    (p : CharParam) (i o : HStream) (his eta : ℝ) (hp : p ≠ .other) (him : i.m ≠ 0)
    (hom : o.m ≠ 0) (hv : i.vol ≠ 0) (hip : i.p ≠ 0) (hop : o.p ≠ 0) :
    (pumpEtaReported i o his = .ok eta →
      pumpEtaCharRes line.evaluate p i o (designOf i) (designOf o) his eta = .ok 0) ∧
    (turbineEtaReported i o his = .ok eta →
      turbineEtaCharRes line.evaluate p i o (designOf i) (designOf o) his eta = .ok 0) := by
  have h1 : line.evaluate 1 = .ok 1 := by
    have := C04_support_points line hvalid hn k hk
    rw [hx, hy] at this; exact this
  have hl := C41_load_one p i o hp him hom hv hip hop
  have := C41_eta_s_char line.evaluate p i o (designOf i) (designOf o) his eta 1 1 eta hl
    one_ne_zero h1
  exact ⟨fun h => (this.1 h).2 (by ring), fun h => (this.2 h).2 (by ring)⟩

/-- C41, at standstill: without flow, at zero load, the equations of the isentropic
efficiency characteristics have no value but abort the calculation with the message that the
parameter of the characteristic is not valid, whatever the characteristic line. -/
theorem C41_zero_load (f : ℝ → PyRes ℝ) (i o : HStream) (di d_o : HDesign)
    (his etaD : ℝ) (hm : i.m = 0) (hdm : di.m ≠ 0) (hdv : di.v ≠ 0) :
    pumpEtaCharRes f .m i o di d_o his etaD = .error .valueError ∧
    pumpEtaCharRes f .v i o di d_o his etaD = .error .valueError ∧
    turbineEtaCharRes f .m i o di d_o his etaD = .error .valueError ∧
    turbineEtaCharRes f .v i o di d_o his etaD = .error .valueError := by
  have h1 : charExprRel .m i o di d_o = .ok 0 := by
    show rdiv i.m di.m = _
    rw [rdiv_of_ne hdm, hm, zero_div]
  have h2 : charExprRel .v i o di d_o = .ok 0 := by
    show rdiv (i.m * i.vol) di.v = _
    rw [rdiv_of_ne hdv, hm, zero_mul, zero_div]
  unfold pumpEtaCharRes turbineEtaCharRes charFactor
  rw [h1, h2]
  simp

/-- A turbine at standstill. -/
example : ∃ (i : HStream) (di : HDesign), i.m = 0 ∧ di.m ≠ 0 ∧ di.v ≠ 0 ∧ i.p = 10 :=
  ⟨⟨0, 10, 3000, 1 / 2, 700⟩, ⟨5, 100, 2, 2 / 5, 800⟩, rfl, by norm_num, by norm_num, rfl⟩

/-- Stodola's cone law (specification): squared mass flow ratio. -/
def Spec.coneLaw (i o : HStream) (di : HDesign) (prD : ℝ) : Prop :=
  (i.m / di.m) ^ 2 =
    (i.p * di.vol) / (di.p * i.vol) * |(1 - (o.p / i.p) ^ 2) / (1 - prD ^ 2)|

/-- C41, cone law, any load: for positive mass flows, pressures and volumes the equation of the
turbine is satisfied if and only if the squared mass flow ratio follows the cone law. -/
theorem C41_cone (i o : HStream) (di : HDesign) (prD : ℝ) (hm : 0 ≤ i.m) (hdm : 0 < di.m)
    (hp : 0 < i.p) (hdp : 0 < di.p) (hv : 0 < i.vol) (hdv : 0 < di.vol) (hpr : prD ^ 2 ≠ 1) :
    coneRes i o di prD = .ok 0 ↔ Spec.coneLaw i o di prD := by
  have hpr' : 1 - prD ^ 2 ≠ 0 := fun h => hpr (by linarith)
  unfold coneRes Spec.coneLaw
  rw [if_neg (by
      rintro (h | h | h | h)
      · exact hdp.ne' h
      · exact (mul_pos hp hv).ne' h
      · exact hp.ne' h
      · exact hpr' h), if_neg (not_lt.2 (by positivity))]
  simp only [Except.ok.injEq]
  set A := |(1 - (o.p / i.p) ^ 2) / (1 - prD ^ 2)| with hA
  have hA0 : 0 ≤ A := abs_nonneg _
  have hq : 0 ≤ di.p * di.vol / (i.p * i.vol) := by positivity
  have e : di.m * i.p / di.p * Real.sqrt (di.p * di.vol / (i.p * i.vol)) * Real.sqrt A
      = di.m * Real.sqrt (i.p * di.vol / (di.p * i.vol) * A) := by
    rw [Real.sqrt_mul (by positivity : 0 ≤ i.p * di.vol / (di.p * i.vol))]
    have : i.p / di.p * Real.sqrt (di.p * di.vol / (i.p * i.vol))
        = Real.sqrt (i.p * di.vol / (di.p * i.vol)) := by
      have h2 : i.p * di.vol / (di.p * i.vol)
          = (i.p / di.p) ^ 2 * (di.p * di.vol / (i.p * i.vol)) := by
        field_simp
      rw [h2, Real.sqrt_mul (by positivity), Real.sqrt_sq (by positivity)]
    rw [← this]; ring
  rw [e]
  set B := i.p * di.vol / (di.p * i.vol) * A with hB
  have hB0 : 0 ≤ B := by rw [hB]; positivity
  constructor
  · intro h
    have : i.m / di.m = Real.sqrt B := by rw [div_eq_iff hdm.ne']; linarith
    rw [this, Real.sq_sqrt hB0]
  · intro h
    have : i.m / di.m = Real.sqrt B := by
      rw [← h, Real.sqrt_sq (by positivity)]
    rw [div_eq_iff hdm.ne'] at this
    rw [this]; ring

/-- C41, cone law at the design point. -/
theorem C41_cone_design (i o : HStream) (prD : ℝ) (hr : prReported i o = .ok prD)
    (hm : 0 < i.m) (hp : 0 < i.p) (hv : 0 < i.vol) (hpr : prD ^ 2 ≠ 1) :
    coneRes i o (designOf i) prD = .ok 0 := by
  obtain ⟨-, hprD⟩ := rdiv_ok hr
  refine (C41_cone i o (designOf i) prD hm.le hm hp hp hv hv hpr).2 ?_
  unfold Spec.coneLaw designOf
  have hpr' : 1 - prD ^ 2 ≠ 0 := fun h => hpr (by linarith)
  simp only
  rw [← hprD, div_self hm.ne', div_self (mul_pos hp hv).ne', div_self hpr']
  norm_num

/-- Without pressure drop in the design case the cone law cannot be evaluated. -/
theorem C41_cone_no_drop (i o : HStream) (di : HDesign) :
    coneRes i o di 1 = .error .zeroDivision := by
  unfold coneRes
  rw [if_pos (by right; right; right; norm_num)]

/-- C41, heat transfer coefficient characteristics, any load: the equation of heat exchangers is
satisfied if and only if the reported kA is the design value times the harmonic mean of the two
characteristics. -/
theorem C41_kA_char (f1 f2 : ℝ → PyRes ℝ) (x1 x2 c1 c2 kAD : ℝ) (s : HexState) (r : HexResults)
    (h1 : f1 x1 = .ok c1) (h2 : f2 x2 = .ok c2) (hc1 : 0 < c1) (hc2 : 0 < c2)
    (hr : hexCalc false s = .ok r) (hu : 0 < s.i1.T - s.o2.T) (hl : 0 < s.o1.T - s.i2.T) :
    hexKACharRes f1 f2 (.ok x1) (.ok x2) s kAD = .ok 0 ↔
      r.kA = some (kAD * (2 / (1 / c1 + 1 / c2))) := by
  rw [← (C39_kA_partial s _).1 r hr hu hl]
  unfold hexKACharRes hexKARes
  have hs : (1 / c1 + 1 / c2) ≠ 0 := by positivity
  simp only [h1, h2, if_neg (show ¬(c1 = 0 ∨ c2 = 0 ∨ 1 / c1 + 1 / c2 = 0) by
    rintro (h | h | h)
    · exact hc1.ne' h
    · exact hc2.ne' h
    · exact hs h)]

/-- C41, heat transfer coefficient characteristics at the design point. -/
theorem C41_kA_char_design (l1 l2 : CharLine ℝ) (hv1 : l1.Valid) (hv2 : l2.Valid)
    (hn1 : 2 ≤ l1.x.length) (hn2 : 2 ≤ l2.x.length)
    (k1 k2 : ℕ) (hk1 : k1 < l1.x.length) (hk2 : k2 < l2.x.length)
    (hx1 : l1.x[k1] = 1) (hx2 : l2.x[k2] = 1)
    (hy1 : l1.y[k1]'(by rw [hv1.len]; exact hk1) = 1)
    (hy2 : l2.y[k2]'(by rw [hv2.len]; exact hk2) = 1)
    (p1 p2 : CharParam) (s : HexState) (r : HexResults) (kA : ℝ)
    (hp1 : p1 ≠ .other) (hp2 : p2 ≠ .other)
    (hm1 : s.i1.m ≠ 0) (hm2 : s.i2.m ≠ 0) (hmo1 : s.o1.m ≠ 0) (hmo2 : s.o2.m ≠ 0)
    (hvol1 : s.i1.vol ≠ 0) (hvol2 : s.i2.vol ≠ 0) (hpi1 : s.i1.p ≠ 0) (hpi2 : s.i2.p ≠ 0)
    (hpo1 : s.o1.p ≠ 0) (hpo2 : s.o2.p ≠ 0)
    (hr : hexCalc false s = .ok r) (hu : 0 < s.i1.T - s.o2.T) (hl : 0 < s.o1.T - s.i2.T)
    (hkA : r.kA = some kA) :
    hexKACharRes l1.evaluate l2.evaluate
      (charExprRel p1 s.i1 s.o1 (designOf s.i1) (designOf s.o1))
      (charExprRel p2 s.i2 s.o2 (designOf s.i2) (designOf s.o2)) s kA = .ok 0 := by
  have e1 : l1.evaluate 1 = .ok 1 := by
    have := C04_support_points l1 hv1 hn1 k1 hk1
    rw [hx1, hy1] at this; exact this
  have e2 : l2.evaluate 1 = .ok 1 := by
    have := C04_support_points l2 hv2 hn2 k2 hk2
    rw [hx2, hy2] at this; exact this
  rw [C41_load_one p1 _ _ hp1 hm1 hmo1 hvol1 hpi1 hpo1,
    C41_load_one p2 _ _ hp2 hm2 hmo2 hvol2 hpi2 hpo2,
    C41_kA_char _ _ 1 1 1 1 kA s r e1 e2 one_pos one_pos hr hu hl, hkA]
  norm_num

/-- The characteristic with the points (0, 1/2), (1, 1), (2, 11/10). -/
noncomputable def exLine : CharLine ℝ := ⟨[0, 1, 2], [1 / 2, 1, 11 / 10], false⟩

/-- Non-trivial case of `C41_eta_s_design` and `C41_cone_design`: a turbine from 10 bar to 1 bar
with 80 % efficiency. -/
example : turbineEtaCharRes exLine.evaluate .m ⟨10, 10 ^ 6, 3 * 10 ^ 6, 600, 1 / 4⟩
      ⟨10, 10 ^ 5, 26 * 10 ^ 5, 380, 3 / 2⟩
      (designOf ⟨10, 10 ^ 6, 3 * 10 ^ 6, 600, 1 / 4⟩)
      (designOf ⟨10, 10 ^ 5, 26 * 10 ^ 5, 380, 3 / 2⟩) (25 * 10 ^ 5) (4 / 5) = .ok 0 ∧
    coneRes ⟨10, 10 ^ 6, 3 * 10 ^ 6, 600, 1 / 4⟩ ⟨10, 10 ^ 5, 26 * 10 ^ 5, 380, 3 / 2⟩
      (designOf ⟨10, 10 ^ 6, 3 * 10 ^ 6, 600, 1 / 4⟩) (1 / 10) = .ok 0 := by
  have hvalid : exLine.Valid := ⟨rfl, by norm_num [exLine]⟩
  constructor
  · refine (C41_eta_s_design exLine hvalid (by norm_num [exLine]) 1 (by norm_num [exLine]) rfl rfl
      .m _ _ _ _ (by decide) ?_ ?_ ?_ ?_ ?_).2 ?_ <;>
      norm_num [turbineEtaReported, rdiv]
  · refine C41_cone_design _ _ _ ?_ ?_ ?_ ?_ ?_ <;> norm_num [prReported, rdiv]

/-- Non-trivial case of `C41_kA_char_design`. -/
example : ∃ r kA, hexCalc false exHex = .ok r ∧ r.kA = some kA ∧
    hexKACharRes exLine.evaluate exLine.evaluate
      (charExprRel .m exHex.i1 exHex.o1 (designOf exHex.i1) (designOf exHex.o1))
      (charExprRel .v exHex.i2 exHex.o2 (designOf exHex.i2) (designOf exHex.o2)) exHex kA
      = .ok 0 := by
  have hvalid : exLine.Valid := ⟨rfl, by norm_num [exLine]⟩
  obtain ⟨r, hr⟩ : ∃ r, hexCalc false exHex = .ok r := by
    refine C39_results_exist false exHex ?_ ?_ ?_ ?_ ?_ ?_ ?_ ?_ ?_ ?_ <;>
      norm_num [exHex, HexState.Tu]
  have hu : 0 < exHex.i1.T - exHex.o2.T := by norm_num [exHex]
  have hl : 0 < exHex.o1.T - exHex.i2.T := by norm_num [exHex]
  obtain ⟨-, -, -, -, -, -, -, -, -, -, -, hk, -⟩ := hexCalc_ok hr
  have e : exHex.Tu false = exHex.i1.T := rfl
  rw [e, hexKAReported_pos hu hl] at hk
  refine ⟨r, _, hr, (Except.ok.inj hk).symm, ?_⟩
  refine C41_kA_char_design exLine exLine hvalid hvalid (by norm_num [exLine])
    (by norm_num [exLine]) 1 1 (by norm_num [exLine]) (by norm_num [exLine]) rfl rfl rfl rfl
    .m .v exHex r _ (by decide) (by decide) ?_ ?_ ?_ ?_ ?_ ?_ ?_ ?_ ?_ ?_ hr hu hl
    (Except.ok.inj hk).symm <;> norm_num [exHex]

end Tespy
