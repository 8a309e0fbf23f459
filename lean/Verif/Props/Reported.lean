import Verif.Props.TdLog
import Mathlib.Tactic.Ring
import Mathlib.Tactic.LinearCombination

/-!
C39: the reported component parameters and the equations of the corresponding specifications.
C59: hydraulic equations of pipes and simple heat exchangers.
-/
namespace Tespy

theorem rdiv_ok {a b v : ℝ} (h : rdiv a b = .ok v) : b ≠ 0 ∧ v = a / b := by
  unfold rdiv at h
  split at h
  · cases h
  · next hb => exact ⟨hb, (Except.ok.inj h).symm⟩

theorem rdiv_of_ne {a b : ℝ} (h : b ≠ 0) : rdiv a b = .ok (a / b) := by
  unfold rdiv; rw [if_neg h]

theorem hexCalc_ok {cond : Bool} {s : HexState} {r : HexResults} (h : hexCalc cond s = .ok r) :
    r.Q = s.i1.m * (s.o1.h - s.i1.h) ∧ r.ttdU = s.Tu cond - s.o2.T ∧ r.ttdL = s.o1.T - s.i2.T ∧
    r.ttdMin = min (s.Tu cond - s.o2.T) (s.o1.T - s.i2.T) ∧
    rdiv s.o1.p s.i1.p = .ok r.pr1 ∧ rdiv s.o2.p s.i2.p = .ok r.pr2 ∧
    calcZeta s.i1 s.o1 = .ok r.zeta1 ∧ calcZeta s.i2 s.o2 = .ok r.zeta2 ∧
    r.dp1 = s.i1.p - s.o1.p ∧ r.dp2 = s.i2.p - s.o2.p ∧
    hexTdLogReported (s.Tu cond - s.o2.T) (s.o1.T - s.i2.T) = .ok r.tdLog ∧
    hexKAReported (s.i1.m * (s.o1.h - s.i1.h)) (s.Tu cond - s.o2.T) (s.o1.T - s.i2.T)
      = .ok r.kA ∧
    effReported (s.o1.h - s.i1.h) s.i1.h s.hotMax = .ok r.effHot ∧
    effReported (s.o2.h - s.i2.h) s.i2.h s.coldMax = .ok r.effCold := by
  unfold hexCalc at h
  split at h
  all_goals first
    | cases h; done
    | skip
  next h1 h2 h3 h4 h5 h6 h7 h8 =>
    have := Except.ok.inj h
    subst this
    exact ⟨rfl, rfl, rfl, rfl, h1, h3, h2, h4, rfl, rfl, h5, h6, h7, h8⟩

theorem pr_iff {i o : HStream} {v pr : ℝ} (h : rdiv o.p i.p = .ok v) :
    prRes i o pr = 0 ↔ pr = v := by
  obtain ⟨h0, rfl⟩ := rdiv_ok h
  unfold prRes
  rw [eq_div_iff h0]
  constructor <;> intro h <;> linarith

theorem dp_iff (i o : HStream) (v : ℝ) : dpRes i o v = 0 ↔ v = i.p - o.p := by
  unfold dpRes; constructor <;> intro h <;> linarith

/-- ζ: the equation and the reported value agree if the mass flow is positive (and not
practically zero). -/
theorem zeta_iff {i o : HStream} {v z : ℝ} (hm : 1 / 10000 < i.m) (h : calcZeta i o = .ok v) :
    zetaRes i o z = .ok 0 ↔ z = v := by
  have hm0 : 0 < i.m := by linarith [show (0 : ℝ) < 1 / 10000 by norm_num]
  unfold calcZeta at h
  rw [abs_of_pos hm0, if_neg (not_le.2 hm)] at h
  obtain ⟨h0, rfl⟩ := rdiv_ok h
  have hv : i.vol + o.vol ≠ 0 := fun hh => h0 (by rw [hh, mul_zero])
  unfold zetaRes
  rw [abs_of_pos hm0, if_neg (not_lt.2 hm.le),
    rdiv_of_ne (by
      have : 8 * i.m * i.m * (i.vol + o.vol) / 2 = 4 * i.m ^ 2 * (i.vol + o.vol) := by ring
      rw [this]; exact h0)]
  have e : 8 * i.m * i.m * (i.vol + o.vol) / 2 = 4 * i.m ^ 2 * (i.vol + o.vol) := by ring
  rw [e]
  simp only [Except.ok.injEq]
  exact sub_eq_zero

theorem eff_iff {dh hin v : ℝ} {hmax : Option ℝ} {e : Option ℝ}
    (h : effReported dh hin hmax = .ok e) :
    (match hmax with
      | none => (.error .valueError : PyRes ℝ)
      | some h => .ok (v * (h - hin) - dh)) = .ok 0 ↔ e = some v := by
  unfold effReported at h
  cases hmax with
  | none =>
    have := Except.ok.inj h
    subst this
    simp
  | some x =>
    simp only at h
    split at h
    · cases h
    · next w hw =>
      obtain ⟨h0, rfl⟩ := rdiv_ok hw
      have := Except.ok.inj h
      subst this
      simp only [Except.ok.injEq, Option.some.injEq]
      rw [div_eq_iff h0]
      constructor <;> intro h <;> linarith

theorem hexKAReported_pos {Q u l : ℝ} (hu : 0 < u) (hl : 0 < l) :
    hexKAReported Q u l = .ok (some (-Q / Spec.logMean u l)) := by
  unfold hexKAReported hexTdLogReported
  rw [if_neg (by rintro (h | h) <;> linarith)]
  have hp := (Spec.logMean_pos hu hl).ne'
  by_cases h : l = u
  · subst h
    have e : Spec.logMean l l = l := by simp [Spec.logMean]
    rw [if_pos rfl, e]
    simp only [rdiv_of_ne hl.ne']
  · rw [if_neg h, logQuot_pos hl hu h, Spec.logMean_comm l u]
    simp only [rdiv_of_ne hp]

/-- C39, heat exchangers and condensers: if the calculation of the results succeeds, the residual of
the specification of Q, ttd_u, ttd_l, pr1, pr2, dp1, dp2 (SI), eff_hot and eff_cold with the
value `v` vanishes if and only if `v` is the reported value. -/
theorem C39_heat_exchanger (cond : Bool) (s : HexState) (r : HexResults)
    (h : hexCalc cond s = .ok r) (v : ℝ) :
    (hexQRes s v = 0 ↔ v = r.Q) ∧
    (hexTtdURes cond s v = 0 ↔ v = r.ttdU) ∧
    (hexTtdLRes s v = 0 ↔ v = r.ttdL) ∧
    (prRes s.i1 s.o1 v = 0 ↔ v = r.pr1) ∧ (prRes s.i2 s.o2 v = 0 ↔ v = r.pr2) ∧
    (dpRes s.i1 s.o1 v = 0 ↔ v = r.dp1) ∧ (dpRes s.i2 s.o2 v = 0 ↔ v = r.dp2) ∧
    (hexEffHotRes s v = .ok 0 ↔ r.effHot = some v) ∧
    (hexEffColdRes s v = .ok 0 ↔ r.effCold = some v) := by
  obtain ⟨hQ, hu, hl, -, hp1, hp2, -, -, hd1, hd2, -, -, he1, he2⟩ := hexCalc_ok h
  refine ⟨?_, ?_, ?_, pr_iff hp1, pr_iff hp2, ?_, ?_, eff_iff he1, eff_iff he2⟩
  · rw [hQ]; unfold hexQRes; constructor <;> intro h <;> linarith
  · rw [hu]; unfold hexTtdURes; constructor <;> intro h <;> linarith
  · rw [hl]; unfold hexTtdLRes; constructor <;> intro h <;> linarith
  · rw [hd1]; exact dp_iff _ _ _
  · rw [hd2]; exact dp_iff _ _ _

/-- C39, minimal terminal temperature difference of heat exchangers (not condensers). -/
theorem C39_ttd_min_partial (s : HexState) (r : HexResults) (h : hexCalc false s = .ok r) (v : ℝ) :
    hexTtdMinRes s v = 0 ↔ v = r.ttdMin := by
  obtain ⟨-, -, -, hm, -⟩ := hexCalc_ok h
  have e : s.Tu false = s.i1.T := rfl
  rw [hm, e, min_comm]
  unfold hexTtdMinRes
  exact sub_eq_zero

/-- C39, ζ of heat exchangers (partial: mass flows above 1e-4 kg/s). -/
theorem C39_zeta_partial (cond : Bool) (s : HexState) (r : HexResults)
    (h : hexCalc cond s = .ok r) (v : ℝ) :
    (1 / 10000 < s.i1.m → (zetaRes s.i1 s.o1 v = .ok 0 ↔ v = r.zeta1)) ∧
    (1 / 10000 < s.i2.m → (zetaRes s.i2 s.o2 v = .ok 0 ↔ v = r.zeta2)) := by
  obtain ⟨-, -, -, -, -, -, hz1, hz2, -⟩ := hexCalc_ok h
  exact ⟨fun hm => zeta_iff hm hz1, fun hm => zeta_iff hm hz2⟩

/-- C39, kA of heat exchangers and condensers (partial: both terminal temperature differences
positive). -/
theorem C39_kA_partial (s : HexState) (v : ℝ) :
    (∀ r, hexCalc false s = .ok r → 0 < s.i1.T - s.o2.T → 0 < s.o1.T - s.i2.T →
      (hexKARes s v = .ok 0 ↔ r.kA = some v)) ∧
    (∀ r f, hexCalc true s = .ok r → 0 < s.Tsat - s.o2.T → 0 < s.o1.T - s.i2.T →
      (condKARes f s v = .ok 0 ↔ r.kA = some v)) := by
  constructor
  · intro r h hu hl
    obtain ⟨-, -, -, -, -, -, -, -, -, -, -, hk, -⟩ := hexCalc_ok h
    have e : s.Tu false = s.i1.T := rfl
    rw [e, hexKAReported_pos hu hl] at hk
    rw [← Except.ok.inj hk]
    obtain ⟨td, htd, htd', hpos, -⟩ := C40_heat_exchanger s.i1.T s.i2.T s.o1.T s.o2.T
    unfold hexKARes
    rw [htd]
    simp only [Except.ok.injEq, Option.some.injEq]
    unfold Spec.guarded at htd'
    rw [if_pos hu, if_pos hl] at htd'
    rw [← htd', div_eq_iff hpos.ne']
    constructor <;> intro h <;> linarith
  · intro r f h hu hl
    obtain ⟨-, -, -, -, -, -, -, -, -, -, -, hk, -⟩ := hexCalc_ok h
    have e : s.Tu true = s.Tsat := rfl
    rw [e, hexKAReported_pos hu hl] at hk
    rw [← Except.ok.inj hk]
    obtain ⟨td, htd, htd', hpos, -⟩ := C40_condenser_partial f s.Tsat s.i2.T s.o1.T s.o2.T
      (.inl (by linarith)) (.inl (by linarith))
    unfold condKARes
    rw [htd]
    simp only [Except.ok.injEq, Option.some.injEq]
    unfold Spec.guarded at htd'
    rw [if_pos hu, if_pos hl] at htd'
    rw [← htd', div_eq_iff hpos.ne']
    constructor <;> intro h <;> linarith

/-- A converged state of a heat exchanger: 10 kg/s of hot fluid from 500 K to 400 K against
5 kg/s of cold fluid from 300 K to 450 K; inlet saturation temperature 470 K. -/
noncomputable def exHex : HexState where
  i1 := ⟨10, 200000, 800000, 500, 1 / 1000⟩
  o1 := ⟨10, 180000, 400000, 400, 1 / 1000⟩
  i2 := ⟨5, 100000, 100000, 300, 1 / 100⟩
  o2 := ⟨5, 90000, 900000, 450, 1 / 100⟩
  hotMax := some 0
  coldMax := some 1100000
  Tsat := 470

/-- The results are reported whenever pressures, specific volumes, maximal enthalpy differences
and terminal differences are not degenerate. -/
theorem C39_results_exist (cond : Bool) (s : HexState) (h1 : s.i1.p ≠ 0) (h2 : s.i2.p ≠ 0)
    (hm1 : s.i1.m ≠ 0) (hm2 : s.i2.m ≠ 0)
    (hv1 : s.i1.vol + s.o1.vol ≠ 0) (hv2 : s.i2.vol + s.o2.vol ≠ 0)
    (hu : 0 < s.Tu cond - s.o2.T) (hl : 0 < s.o1.T - s.i2.T)
    (heh : s.hotMax ≠ some s.i1.h) (hec : s.coldMax ≠ some s.i2.h) :
    ∃ r, hexCalc cond s = .ok r := by
  have z : ∀ i o : HStream, i.m ≠ 0 → i.vol + o.vol ≠ 0 → ∃ z, calcZeta i o = .ok z := by
    intro i o hm hv
    unfold calcZeta
    split
    · exact ⟨_, rfl⟩
    · rw [rdiv_of_ne (by positivity)]; exact ⟨_, rfl⟩
  have ef : ∀ dh hin hmax, hmax ≠ some hin → ∃ e, effReported dh hin hmax = .ok e := by
    intro dh hin hmax h
    unfold effReported
    cases hmax with
    | none => exact ⟨_, rfl⟩
    | some x =>
      have : x - hin ≠ 0 := fun hh => h (by rw [sub_eq_zero.1 hh])
      simp only [rdiv_of_ne this]; exact ⟨_, rfl⟩
  obtain ⟨z1, hz1⟩ := z _ _ hm1 hv1
  obtain ⟨z2, hz2⟩ := z _ _ hm2 hv2
  obtain ⟨e1, he1⟩ := ef (s.o1.h - s.i1.h) _ _ heh
  obtain ⟨e2, he2⟩ := ef (s.o2.h - s.i2.h) _ _ hec
  have htd : ∃ td, hexTdLogReported (s.Tu cond - s.o2.T) (s.o1.T - s.i2.T) = .ok td := by
    unfold hexTdLogReported
    rw [if_neg (by rintro (h | h) <;> linarith)]
    by_cases h : s.o1.T - s.i2.T = s.Tu cond - s.o2.T
    · rw [if_pos h]; exact ⟨_, rfl⟩
    · rw [if_neg h, logQuot_pos hl hu h]; exact ⟨_, rfl⟩
  obtain ⟨td, htd⟩ := htd
  unfold hexCalc
  rw [rdiv_of_ne h1, rdiv_of_ne h2, hz1, hz2, htd, hexKAReported_pos hu hl, he1, he2]
  exact ⟨_, rfl⟩

/-- Non-trivial case: all hypotheses of the theorems above hold for `exHex`, as heat exchanger and
as condenser. -/
example : (∃ r, hexCalc false exHex = .ok r) ∧ (∃ r, hexCalc true exHex = .ok r) ∧
    1 / 10000 < exHex.i1.m ∧ 0 < exHex.Tsat - exHex.o2.T ∧ 0 < exHex.i1.T - exHex.o2.T ∧
    0 < exHex.o1.T - exHex.i2.T := by
  refine ⟨C39_results_exist false exHex ?_ ?_ ?_ ?_ ?_ ?_ ?_ ?_ ?_ ?_,
    C39_results_exist true exHex ?_ ?_ ?_ ?_ ?_ ?_ ?_ ?_ ?_ ?_, ?_, ?_, ?_, ?_⟩ <;>
    norm_num [exHex, HexState.Tu]

/-- C39 does not hold for `ttd_min` of condensers: with a superheated hot inlet the equation uses
the inlet temperature, the report the saturation temperature: specifying 50 K is satisfied,
reported are 20 K. -/
theorem C39_ttd_min_condenser_false :
    ∃ s r, hexCalc true s = .ok r ∧ hexTtdMinRes s 50 = 0 ∧ r.ttdMin = 20 := by
  obtain ⟨r, hr⟩ : ∃ r, hexCalc true exHex = .ok r := by
    refine C39_results_exist true exHex ?_ ?_ ?_ ?_ ?_ ?_ ?_ ?_ ?_ ?_ <;>
      norm_num [exHex, HexState.Tu]
  refine ⟨exHex, r, hr, ?_, ?_⟩
  · norm_num [hexTtdMinRes, exHex]
  · obtain ⟨-, -, -, hm, -⟩ := hexCalc_ok hr
    rw [hm]; norm_num [exHex, HexState.Tu]

/-- C39 does not hold for kA if a terminal temperature difference is negative: the equation for kA
is satisfied (with the difference replaced by 0.01 K), but kA is reported as nan. -/
theorem C39_kA_false (s : HexState) (hu : s.i1.T - s.o2.T < 0) :
    (∃ v, hexKARes s v = .ok 0) ∧ ∀ r, hexCalc false s = .ok r → r.kA = none := by
  constructor
  · obtain ⟨td, htd, -, hpos, -⟩ := C40_heat_exchanger s.i1.T s.i2.T s.o1.T s.o2.T
    refine ⟨-(s.i1.m * (s.o1.h - s.i1.h)) / td, ?_⟩
    unfold hexKARes
    rw [htd]
    simp only [Except.ok.injEq]
    field_simp
    ring
  · intro r h
    obtain ⟨-, -, -, -, -, -, -, -, -, -, -, hk, -⟩ := hexCalc_ok h
    have e : s.Tu false = s.i1.T := rfl
    rw [e] at hk
    unfold hexKAReported hexTdLogReported at hk
    rw [if_pos (.inl hu)] at hk
    exact (Except.ok.inj hk).symm

example : ({exHex with o2 := ⟨5, 90000, 900000, 510, 1 / 100⟩} : HexState).i1.T
    - ({exHex with o2 := ⟨5, 90000, 900000, 510, 1 / 100⟩} : HexState).o2.T < 0 := by
  norm_num [exHex]

/-- With an upper terminal temperature difference of exactly zero (a permitted value of the
specification `ttd_u`) and a positive lower one, the calculation of the results fails with a
`ZeroDivisionError` after a successful iteration. The lower difference zero gives a math domain
error. -/
theorem C39_zero_difference_false (Q d : ℝ) (hd : 0 < d) :
    hexKAReported Q 0 d = .error .zeroDivision ∧ hexKAReported Q d 0 = .error .mathDomain ∧
    hexKAReported Q 0 0 = .error .zeroDivision := by
  refine ⟨?_, ?_, ?_⟩
  · unfold hexKAReported hexTdLogReported logQuot
    rw [if_neg (by rintro (h | h) <;> linarith), if_neg hd.ne', if_pos rfl]
  · unfold hexKAReported hexTdLogReported logQuot
    rw [if_neg (by rintro (h | h) <;> linarith), if_neg hd.ne, if_neg hd.ne',
      if_pos (by simp)]
  · simp [hexKAReported, hexTdLogReported, rdiv]

/-- C39 does not hold for ζ with reversed flow: the equation yields a negative sign for
`|m|·m`, the report uses `m²`; the equation is satisfied by ζ, reported is −ζ. -/
theorem C39_zeta_reverse (i o : HStream) (z v : ℝ) (hm : i.m < -(1 / 10000))
    (h : calcZeta i o = .ok v) : zetaRes i o z = .ok 0 ↔ z = -v := by
  have hm0 : i.m < 0 := by linarith [show (0 : ℝ) < 1 / 10000 by norm_num]
  unfold calcZeta at h
  rw [abs_of_neg hm0, if_neg (by linarith)] at h
  obtain ⟨h0, rfl⟩ := rdiv_ok h
  have e : 8 * -i.m * i.m * (i.vol + o.vol) / 2 = -(4 * i.m ^ 2 * (i.vol + o.vol)) := by ring
  unfold zetaRes
  rw [abs_of_neg hm0, if_neg (by linarith), e, rdiv_of_ne (neg_ne_zero.2 h0)]
  simp only [Except.ok.injEq, div_neg, sub_neg_eq_add]
  exact add_eq_zero_iff_eq_neg

example : ∃ i o v, i.m < -(1 / 10000) ∧ calcZeta i o = .ok v ∧ v ≠ 0 :=
  ⟨⟨-1, 100000, 0, 300, 1 / 2⟩, ⟨-1, 100001, 0, 300, 1 / 2⟩,
    _, by norm_num, by rw [calcZeta, if_neg (by norm_num), rdiv_of_ne (by norm_num)],
    by norm_num [Real.pi_ne_zero]⟩

/-- ζ at (almost) standstill: reported as zero, independently of the specified value. -/
theorem C39_zeta_standstill (i o : HStream) (z : ℝ) (hm : |i.m| < 1 / 10000) :
    calcZeta i o = .ok 0 ∧ (zetaRes i o z = .ok 0 ↔ i.p = o.p) := by
  unfold calcZeta zetaRes
  rw [if_pos hm.le, if_pos hm]
  simp [sub_eq_zero]

/-! ### Simple heat exchangers -/

/-- The reported difference of simple heat exchangers is the one of the equation if both
temperatures lie on the same side of the ambient temperature. -/
theorem simpleTdReported_eq (Ti To Tamb : ℝ) (h : 0 < (Ti - Tamb) * (To - Tamb)) :
    simpleTdReported Ti To Tamb = simpleTd Ti To Tamb := by
  have h2 : To - Tamb ≠ 0 := fun hh => by rw [hh, mul_zero] at h; exact lt_irrefl _ h
  have hr : ¬ ((Ti - Tamb) / (To - Tamb) < 0) := by
    rw [not_lt, ← mul_div_mul_right _ _ h2]
    exact (div_pos h (mul_self_pos.2 h2)).le
  unfold simpleTdReported simpleTd
  rw [if_neg h2, if_neg h2, if_neg hr]
  by_cases hg : Ti - Tamb > To - Tamb
  · rw [if_pos hg, if_pos hg]
  rw [if_neg hg, if_neg hg]
  by_cases hg' : Ti - Tamb < To - Tamb
  · rw [if_pos hg', if_pos hg']
  rw [if_neg hg', if_neg hg', le_antisymm (not_lt.1 hg) (not_lt.1 hg')]

/-- C39, kA of simple heat exchangers (partial: non-negative kA, both temperatures on the same
side of the ambient temperature): a satisfied specification is reported. -/
theorem C39_simple_kA_partial (i o : HStream) (Tamb kA : ℝ) (hk : 0 ≤ kA)
    (h : 0 < (i.T - Tamb) * (o.T - Tamb)) (hres : simpleKARes i o Tamb kA = .ok 0) :
    simpleKAReported i o Tamb = .ok kA := by
  have hval : ∃ td, simpleTd i.T o.T Tamb = .ok td ∧ td ≠ 0 := by
    rcases pos_and_pos_or_neg_and_neg_of_mul_pos h with ⟨h1, h2⟩ | ⟨h1, h2⟩
    · exact ⟨_, (C40_simple_value i.T o.T Tamb).1 (by linarith) (by linarith),
        (Spec.logMean_pos h1 h2).ne'⟩
    · refine ⟨_, (C40_simple_value i.T o.T Tamb).2 (by linarith) (by linarith), ?_⟩
      exact neg_ne_zero.2 (Spec.logMean_pos (by linarith) (by linarith)).ne'
  obtain ⟨td, htd, h0⟩ := hval
  unfold simpleKARes at hres
  rw [htd] at hres
  have hQ := Except.ok.inj hres
  unfold simpleKAReported
  rw [simpleTdReported_eq _ _ _ h, htd]
  simp only [rdiv_of_ne h0]
  have : i.m * (o.h - i.h) / td = -kA := by
    rw [div_eq_iff h0]; linarith
  rw [this, abs_neg, abs_of_nonneg hk]

/-- Non-trivial case: cooling from 400 K to 400 K + heat loss at constant temperature
(condensation), kA = 20. -/
example : simpleKAReported ⟨1, 1, 3000, 400, 1⟩ ⟨1, 1, 1000, 400, 1⟩ 300 = .ok 20 := by
  refine C39_simple_kA_partial _ _ _ _ (by norm_num) (by norm_num) ?_
  unfold simpleKARes
  rw [(C40_simple_value 400 400 300).1 (by norm_num) (by norm_num)]
  norm_num [Spec.logMean]

/-- C39 does not hold for kA of simple heat exchangers in general: if the ambient temperature is
crossed, the equation uses the arithmetic mean, but reporting the results fails with a math
domain error (for every state whose temperatures lie on different sides of the ambient one). -/
theorem C39_simple_kA_false (i o : HStream) (Tamb : ℝ) (h : (i.T - Tamb) * (o.T - Tamb) < 0) :
    simpleKAReported i o Tamb = .error .mathDomain ∧
    (i.T - Tamb ≠ -(o.T - Tamb) → ∃ kA, simpleKARes i o Tamb kA = .ok 0) := by
  have h1 : i.T - Tamb ≠ 0 := fun hh => by rw [hh, zero_mul] at h; exact lt_irrefl _ h
  have h2 : o.T - Tamb ≠ 0 := fun hh => by rw [hh, mul_zero] at h; exact lt_irrefl _ h
  have hr : (i.T - Tamb) / (o.T - Tamb) < 0 := by
    rw [← mul_div_mul_right _ _ h2]
    exact div_neg_of_neg_of_pos h (mul_self_pos.2 h2)
  have hr' : (o.T - Tamb) / (i.T - Tamb) < 0 := by
    rw [← inv_div]; exact inv_lt_zero.2 hr
  constructor
  · unfold simpleKAReported simpleTdReported
    rw [if_neg h2]
    by_cases hg : i.T - Tamb > o.T - Tamb
    · rw [if_pos hg]
      unfold logQuot
      rw [if_neg h2, if_pos hr.le]
    rw [if_neg hg]
    by_cases hg' : i.T - Tamb < o.T - Tamb
    · rw [if_pos hg']
      unfold logQuot
      rw [if_neg h1, if_pos hr'.le]
    · exfalso
      have := le_antisymm (not_lt.1 hg) (not_lt.1 hg')
      rw [this] at h
      nlinarith [mul_self_nonneg (o.T - Tamb)]
  · intro hne
    unfold simpleKARes simpleTd
    rw [if_neg h2, if_pos hr]
    have h0 : (o.T - Tamb + (i.T - Tamb)) / 2 ≠ 0 := fun hh => hne (by linarith)
    refine ⟨-(i.m * (o.h - i.h)) / ((o.T - Tamb + (i.T - Tamb)) / 2), ?_⟩
    simp only [Except.ok.injEq]
    rw [div_mul_cancel₀ _ h0]; ring

example : ((400 : ℝ) - 350) * (320 - 350) < 0 ∧ (400 : ℝ) - 350 ≠ -(320 - 350) := by norm_num

/-! ### Turbomachines -/

/-- C39, turbomachines: power, pressure ratio and isentropic efficiency. -/
theorem C39_turbomachines (i o : HStream) (his v r : ℝ) :
    (turboPRes i o v = 0 ↔ v = turboPReported i o) ∧
    (prReported i o = .ok r → (prRes i o v = 0 ↔ v = r)) ∧
    (pumpEtaReported i o his = .ok r → (pumpEtaRes i o his v = 0 ↔ v = r)) ∧
    (turbineEtaReported i o his = .ok r → (turbineEtaRes i o his v = 0 ↔ v = r)) := by
  refine ⟨?_, pr_iff, ?_, ?_⟩
  · unfold turboPRes turboPReported; constructor <;> intro h <;> linarith
  · intro h
    obtain ⟨h0, rfl⟩ := rdiv_ok h
    unfold pumpEtaRes
    rw [eq_div_iff h0]
    constructor <;> intro h <;> linarith
  · intro h
    obtain ⟨h0, rfl⟩ := rdiv_ok h
    unfold turbineEtaRes
    rw [eq_div_iff h0]
    constructor <;> intro h <;> linarith

/-- The efficiencies are reported whenever the enthalpy (the isentropic enthalpy) differs from
the one of the inlet; otherwise the calculation of the results fails. -/
theorem C39_eta_reported (i o : HStream) (his : ℝ) :
    ((∃ r, pumpEtaReported i o his = .ok r) ↔ o.h ≠ i.h) ∧
    ((∃ r, turbineEtaReported i o his = .ok r) ↔ his ≠ i.h) := by
  unfold pumpEtaReported turbineEtaReported rdiv
  constructor
  · by_cases h : o.h = i.h
    · simp [h]
    · rw [if_neg (fun hh => h (sub_eq_zero.1 hh))]; simp [h]
  · by_cases h : his = i.h
    · simp [h]
    · rw [if_neg (fun hh => h (sub_eq_zero.1 hh))]; simp [h]

/-! ### Hydraulics -/

/-- C59: with the Darcy equation (positive pipe length, diameter, friction factor and specific
volumes) the pressure falls in the direction of the flow. -/
theorem C59_darcy (i o : HStream) (L D f : ℝ) (hL : 0 < L) (hD : 0 < D) (hf : 0 < f)
    (hv : 0 < i.vol + o.vol) (hres : darcyRes i o L D f = .ok 0) :
    (1 / 10000 ≤ i.m → o.p < i.p) ∧ (i.m ≤ -(1 / 10000) → i.p < o.p) ∧
    (|i.m| < 1 / 10000 → i.p = o.p) := by
  have hpos : (0 : ℝ) < 1 / 10000 := by norm_num
  have hden : 0 < Real.pi ^ 2 * D ^ 5 := by positivity
  unfold darcyRes at hres
  refine ⟨fun hm => ?_, fun hm => ?_, fun hm => ?_⟩
  · have hm0 : 0 < i.m := by linarith
    rw [abs_of_pos hm0, if_neg (not_lt.2 hm), rdiv_of_ne hden.ne'] at hres
    have := Except.ok.inj hres
    have hq : 0 < 8 * i.m * i.m * (i.vol + o.vol) / 2 * L * f / (Real.pi ^ 2 * D ^ 5) := by
      positivity
    linarith
  · have hm0 : i.m < 0 := by linarith
    rw [abs_of_neg hm0, if_neg (by linarith), rdiv_of_ne hden.ne'] at hres
    have := Except.ok.inj hres
    have hq : 0 < 8 * i.m * i.m * (i.vol + o.vol) / 2 * L * f / (Real.pi ^ 2 * D ^ 5) := by
      have := mul_pos_of_neg_of_neg hm0 hm0
      rw [mul_assoc 8]; positivity
    have e : 8 * -i.m * i.m * (i.vol + o.vol) / 2 * L * f / (Real.pi ^ 2 * D ^ 5)
        = -(8 * i.m * i.m * (i.vol + o.vol) / 2 * L * f / (Real.pi ^ 2 * D ^ 5)) := by ring
    rw [e] at this
    linarith
  · rw [if_pos hm] at hres
    have := Except.ok.inj hres
    linarith

/-- C59, ζ: the same for the ζ equation with a positive ζ. -/
theorem C59_zeta (i o : HStream) (z : ℝ) (hz : 0 < z) (hv : 0 < i.vol + o.vol)
    (hres : zetaRes i o z = .ok 0) :
    (1 / 10000 ≤ i.m → o.p < i.p) ∧ (i.m ≤ -(1 / 10000) → i.p < o.p) := by
  have hpos : (0 : ℝ) < 1 / 10000 := by norm_num
  unfold zetaRes at hres
  have hpi : 0 < Real.pi ^ 2 := by positivity
  refine ⟨fun hm => ?_, fun hm => ?_⟩
  · have hm0 : 0 < i.m := by linarith
    have hd : 0 < 8 * i.m * i.m * (i.vol + o.vol) / 2 := by positivity
    rw [abs_of_pos hm0, if_neg (not_lt.2 hm), rdiv_of_ne hd.ne'] at hres
    have h := sub_eq_zero.1 (Except.ok.inj hres)
    rw [eq_div_iff hd.ne'] at h
    have : 0 < (i.p - o.p) * Real.pi ^ 2 := by rw [← h]; positivity
    have := (mul_pos_iff_of_pos_right hpi).1 this
    linarith
  · have hm0 : i.m < 0 := by linarith
    have hmm := mul_pos_of_neg_of_neg hm0 hm0
    have hd : 8 * -i.m * i.m * (i.vol + o.vol) / 2 = -(4 * (i.m * i.m) * (i.vol + o.vol)) := by
      ring
    have hd' : 0 < 4 * (i.m * i.m) * (i.vol + o.vol) := by positivity
    rw [abs_of_neg hm0, if_neg (by linarith), hd, rdiv_of_ne (neg_ne_zero.2 hd'.ne')] at hres
    have h := sub_eq_zero.1 (Except.ok.inj hres)
    rw [eq_div_iff (neg_ne_zero.2 hd'.ne')] at h
    have : 0 < (o.p - i.p) * Real.pi ^ 2 := by
      have e : (o.p - i.p) * Real.pi ^ 2 = z * (4 * (i.m * i.m) * (i.vol + o.vol)) := by linarith
      rw [e]; positivity
    have := (mul_pos_iff_of_pos_right hpi).1 this
    linarith

theorem hazenLoss_pos {m vi vo L ks D : ℝ} (hm : m ≠ 0) (hv : 0 < vi + vo) (hL : 0 < L)
    (hk : 0 < ks) (hD : 0 < D) : 0 < hazenLoss m vi vo L ks D := by
  unfold hazenLoss
  have := Real.rpow_pos_of_pos (abs_pos.2 hm) 1.852
  have := Real.rpow_pos_of_pos hk 1.852
  have := Real.rpow_pos_of_pos hD 4.871
  have := Real.rpow_pos_of_pos (show 0 < (vi + vo) / 2 by linarith) 0.852
  positivity

/-- C59 does not hold for Hazen-Williams: `copysign` drops the sign of the pressure difference, so
for a positive mass flow the equation has a second solution in which the pressure rises in flow
direction, and for a reversed mass flow it has no solution at all. -/
theorem C59_hazen_williams_false (i o : HStream) (L ks D : ℝ) (hL : 0 < L) (hk : 0 < ks)
    (hD : 0 < D) (hv : 0 < i.vol + o.vol) :
    (1 / 10000 ≤ i.m →
      hazenRes i { o with p := i.p + hazenLoss i.m i.vol o.vol L ks D } L ks D = 0 ∧
      hazenRes i { o with p := i.p - hazenLoss i.m i.vol o.vol L ks D } L ks D = 0 ∧
      i.p < i.p + hazenLoss i.m i.vol o.vol L ks D) ∧
    (i.m ≤ -(1 / 10000) → hazenRes i o L ks D ≠ 0) := by
  have hpos : (0 : ℝ) < 1 / 10000 := by norm_num
  constructor
  · intro hm
    have hm0 : 0 < i.m := by linarith
    have hl := hazenLoss_pos (L := L) (ks := ks) (D := D) hm0.ne' hv hL hk hD
    unfold hazenRes copysign
    simp only [abs_of_pos hm0, if_neg (not_lt.2 hm), if_pos hm0.le]
    refine ⟨?_, ?_, by linarith⟩
    · simp only [sub_add_cancel_left, abs_neg, abs_of_pos hl, sub_self]
    · simp only [sub_sub_cancel, abs_of_pos hl, sub_self]
  · intro hm
    have hm0 : i.m < 0 := by linarith
    have hl := hazenLoss_pos (L := L) (ks := ks) (D := D) hm0.ne hv hL hk hD
    unfold hazenRes copysign
    rw [if_neg (by rw [abs_of_neg hm0]; linarith), if_neg (by linarith)]
    have := abs_nonneg (i.p - o.p)
    intro h
    linarith

/-- Hazen-Williams, the part that holds: for a positive mass flow there are exactly the two
solutions `± loss`, so excluding a pressure rise leaves the physical one. -/
theorem C59_hazen_williams_partial (i o : HStream) (L ks D : ℝ) (hm : 1 / 10000 ≤ i.m)
    (hp : o.p ≤ i.p) :
    hazenRes i o L ks D = 0 ↔ i.p - o.p = hazenLoss i.m i.vol o.vol L ks D := by
  have hpos : (0 : ℝ) < 1 / 10000 := by norm_num
  have hm0 : 0 < i.m := by linarith
  unfold hazenRes copysign
  rw [if_neg (by rw [abs_of_pos hm0]; linarith), if_pos hm0.le, abs_of_nonneg (by linarith)]
  exact sub_eq_zero

/-- Non-trivial case for the hydraulic theorems: a state that satisfies the ζ equation. -/
example : ∃ i o z, 0 < z ∧ 0 < i.vol + o.vol ∧ 1 / 10000 ≤ i.m ∧ zetaRes i o z = .ok 0 := by
  refine ⟨⟨1, 2, 0, 300, 1 / 2⟩, ⟨1, 1, 0, 300, 1 / 2⟩, Real.pi ^ 2 / 4, by positivity,
    by norm_num, by norm_num, ?_⟩
  unfold zetaRes
  rw [if_neg (by norm_num), rdiv_of_ne (by norm_num)]
  simp only [Except.ok.injEq]
  norm_num

example : ∃ i o : HStream, ∃ L D f : ℝ, 0 < L ∧ 0 < D ∧ 0 < f ∧ 0 < i.vol + o.vol ∧
    1 / 10000 ≤ i.m ∧ darcyRes i o L D f = .ok 0 := by
  refine ⟨⟨1, 2, 0, 300, 1 / 2⟩, ⟨1, 2 - 4 / Real.pi ^ 2, 0, 300, 1 / 2⟩, 1, 1, 1, by norm_num,
    by norm_num, by norm_num, by norm_num, by norm_num, ?_⟩
  unfold darcyRes
  rw [if_neg (by norm_num), rdiv_of_ne (by have := Real.pi_pos; positivity)]
  simp only [Except.ok.injEq]
  norm_num

end Tespy
