import Verif.Model.DocEqs
import Mathlib.Tactic.Linarith
import Mathlib.Tactic.Ring
import Mathlib.Tactic.LinearCombination
import Mathlib.Tactic.NormNum
import Mathlib.Tactic.FieldSimp
import Mathlib.Algebra.BigOperators.Ring.Finset

/-!
C111: the equations printed in the report are the equations which are solved. `Doc.…` is the printed formula
(Model/DocEqs.lean), the residual on the other side is the function the solver evaluates.
-/
namespace Tespy

/-- `0 = a` and `b = 0` for numbers which differ by the sign at most (specification helper). -/
theorem docIff {K : Type} [Ring K] {a b : K} (h : a = b ∨ a = -b) : 0 = a ↔ b = 0 := by
  rcases h with h | h <;> subst h
  · exact eq_comm
  · constructor
    · intro h; exact neg_eq_zero.mp h.symm
    · rintro rfl; simp

/-! ### turbomachines -/

/-- C111: power and isentropic efficiency of pumps, compressors and turbines, specified or from a characteristic line:
the printed equation holds in exactly the states in which the residual is zero. -/
theorem C111_turbo (i o : HStream) (di d_o : HDesign) (hs v c : ℝ) (f : ℝ → PyRes ℝ) (q : CharParam)
    (hc : charFactor f (charExprRel q i o di d_o) = .ok c) :
    (Doc.turboP i o v ↔ turboPRes i o v = 0) ∧
    (Doc.pumpEta i o hs v ↔ pumpEtaRes i o hs v = 0) ∧
    (Doc.turbineEta i o hs v ↔ turbineEtaRes i o hs v = 0) ∧
    (Doc.pumpEtaChar i o hs v c ↔ pumpEtaCharRes f q i o di d_o hs v = .ok 0) ∧
    (Doc.turbineEtaChar i o hs v c ↔ turbineEtaCharRes f q i o di d_o hs v = .ok 0) := by
  refine ⟨docIff (Or.inl rfl), docIff (Or.inr ?_), docIff (Or.inl rfl), ?_, ?_⟩
  · unfold pumpEtaRes; ring
  · unfold pumpEtaCharRes Doc.pumpEtaChar; rw [hc]
    exact ⟨fun h => congrArg _ h.symm, fun h => (Except.ok.inj h).symm⟩
  · unfold turbineEtaCharRes Doc.turbineEtaChar; rw [hc]
    exact ⟨fun h => congrArg _ h.symm, fun h => (Except.ok.inj h).symm⟩

/-- C111 holds in a concrete case: a turbine at half load with a line of value 9/10. -/
example : charFactor (fun _ => .ok (9 / 10)) (charExprRel .m ⟨5, 10, 100, 400, 1⟩ ⟨5, 1, 10, 300, 2⟩
      ⟨10, 10, 10, 1, 400⟩ ⟨10, 1, 20, 2, 300⟩) = .ok (9 / 10)
    ∧ Doc.turbineEtaChar ⟨5, 10, 100, 400, 1⟩ ⟨5, 1, 10, 300, 2⟩ 0 1 (9 / 10) := by
  constructor
  · unfold charFactor charExprRel rdiv; norm_num
  · unfold Doc.turbineEtaChar; norm_num

/-- C111 for the ellipse law of turbines: in an expansion (inlet pressure above the outlet pressure, all quantities
positive) with mass flow, a state which satisfies the printed and the solved equation has the specific volume of the
design state at the inlet. In the printed formula the quotient of the volumes is upside down. -/
theorem C111_cone_partial (i o : HStream) (di : HDesign) (pd : ℝ) (hm : 0 < i.m) (hp : 0 < i.p) (hv : 0 < i.vol)
    (ho : 0 < o.p) (hio : o.p < i.p) (hdp : 0 < di.p) (hdv : 0 < di.vol) (hpd : 0 < pd) (hd : pd < di.p)
    (hres : coneRes i o di (pd / di.p) = .ok 0) :
    Doc.cone i o di pd ↔ i.vol = di.vol := by
  have hq : (0 : ℝ) < 1 - (pd / di.p) ^ 2 := by
    have h1 : pd / di.p < 1 := (div_lt_one hdp).mpr hd
    have h0 : 0 < pd / di.p := div_pos hpd hdp
    nlinarith
  have hr : (0 : ℝ) < 1 - (o.p / i.p) ^ 2 := by
    have h1 : o.p / i.p < 1 := (div_lt_one hp).mpr hio
    have h0 : 0 < o.p / i.p := div_pos ho hp
    nlinarith
  have hpv : (0 : ℝ) < i.p * i.vol := mul_pos hp hv
  have hE : 0 < (1 - (o.p / i.p) ^ 2) / (1 - (pd / di.p) ^ 2) := div_pos hr hq
  have hA : 0 < di.p * di.vol / (i.p * i.vol) := div_pos (mul_pos hdp hdv) hpv
  have hB : 0 < di.p * i.vol / (i.p * di.vol) := div_pos (mul_pos hdp hv) (mul_pos hp hdv)
  unfold coneRes at hres
  rw [if_neg (by
    rintro (h | h | h | h)
    · exact hdp.ne' h
    · exact hpv.ne' h
    · exact hp.ne' h
    · exact hq.ne' h), if_neg (not_lt.mpr hA.le), abs_of_pos hE] at hres
  replace hres := Except.ok.inj hres
  unfold Doc.cone
  rw [Real.sqrt_mul hB.le]
  have hc : 0 < di.m * i.p / di.p * Real.sqrt ((1 - (o.p / i.p) ^ 2) / (1 - (pd / di.p) ^ 2)) := by
    by_contra hn
    have hs := Real.sqrt_pos.mpr hA
    have : di.m * i.p / di.p * Real.sqrt (di.p * di.vol / (i.p * i.vol))
        * Real.sqrt ((1 - (o.p / i.p) ^ 2) / (1 - (pd / di.p) ^ 2)) ≤ 0 := by
      have := mul_nonpos_of_nonpos_of_nonneg (not_lt.mp hn) hs.le
      nlinarith
    linarith
  constructor
  · intro h
    have heq : Real.sqrt (di.p * i.vol / (i.p * di.vol)) = Real.sqrt (di.p * di.vol / (i.p * i.vol)) := by
      have : di.m * i.p / di.p * Real.sqrt ((1 - (o.p / i.p) ^ 2) / (1 - (pd / di.p) ^ 2))
          * (Real.sqrt (di.p * i.vol / (i.p * di.vol)) - Real.sqrt (di.p * di.vol / (i.p * i.vol))) = 0 := by
        linear_combination -h - hres
      rcases mul_eq_zero.mp this with h | h
      · exact absurd h hc.ne'
      · linarith
    have h2 := (Real.sqrt_inj hB.le hA.le).mp heq
    rw [div_eq_div_iff (mul_pos hp hdv).ne' hpv.ne'] at h2
    have h3 : i.vol * i.vol = di.vol * di.vol := by
      have : di.p * i.p * (i.vol * i.vol - di.vol * di.vol) = 0 := by linear_combination h2
      rcases mul_eq_zero.mp this with h | h
      · exact absurd h (mul_pos hdp hp).ne'
      · linarith
    rcases mul_self_eq_mul_self_iff.mp h3 with h | h
    · exact h
    · linarith
  · intro h
    rw [h] at hres ⊢
    linear_combination -hres

/-- The hypotheses hold in the design state: an expansion from 2 to 1 with the mass flow of the design case. -/
example : coneRes ⟨3, 2, 0, 0, 1⟩ ⟨3, 1, 0, 0, 2⟩ ⟨3, 2, 3, 1, 0⟩ (1 / 2) = .ok 0 := by
  unfold coneRes
  rw [if_neg (by norm_num), if_neg (by norm_num)]
  norm_num

/-- C111 is false for the ellipse law: the state of 4 times the volume of the design state at the design pressures
satisfies the solved equation at half the mass flow of the design case, the printed equation asks for twice the mass
flow of the design case. -/
theorem C111_cone_false :
    ∃ (i o : HStream) (di : HDesign) (pd : ℝ), 0 < i.m ∧ 0 < o.p ∧ o.p < i.p ∧ 0 < i.vol ∧ 0 < di.vol ∧
      coneRes i o di (pd / di.p) = .ok 0 ∧ ¬ Doc.cone i o di pd ∧ Doc.cone { i with m := 2 * di.m } o di pd := by
  refine ⟨⟨1, 2, 0, 0, 4⟩, ⟨1, 1, 0, 0, 8⟩, ⟨2, 2, 2, 1, 0⟩, 1, by norm_num, by norm_num, by norm_num, by norm_num,
    by norm_num, ?_, ?_, ?_⟩
  · have h1 : Real.sqrt (1 / 4) = 1 / 2 := by
      rw [show (1 : ℝ) / 4 = (1 / 2) ^ 2 by norm_num, Real.sqrt_sq (by norm_num)]
    unfold coneRes
    rw [if_neg (by norm_num), if_neg (by norm_num)]
    norm_num
    rw [show Real.sqrt 4 = 2 by rw [show (4 : ℝ) = 2 ^ 2 by norm_num, Real.sqrt_sq (by norm_num)]]
    norm_num
  · unfold Doc.cone
    norm_num
    rw [show Real.sqrt 4 = 2 by rw [show (4 : ℝ) = 2 ^ 2 by norm_num, Real.sqrt_sq (by norm_num)]]
    norm_num
  · unfold Doc.cone
    norm_num
    rw [show Real.sqrt 4 = 2 by rw [show (4 : ℝ) = 2 ^ 2 by norm_num, Real.sqrt_sq (by norm_num)]]
    norm_num

/-! ### heat exchangers -/

/-- C111: energy balance, heat, terminal temperature differences (also of condensers), pressure ratio and zeta value of
heat exchangers. -/
theorem C111_hex (s : HexState) (i o : HStream) (v : ℝ) (hvol : 0 < i.vol + o.vol) :
    (Doc.hexEnergy s ↔ hexEnergyRes s = 0) ∧
    (Doc.hexQ s v ↔ hexQRes s v = 0) ∧
    (Doc.hexTtdU s v ↔ hexTtdURes false s v = 0) ∧
    (Doc.condTtdU s v ↔ hexTtdURes true s v = 0) ∧
    (Doc.hexTtdL s v ↔ hexTtdLRes s v = 0) ∧
    (Doc.pr i o v ↔ prRes i o v = 0) ∧
    (Doc.zeta i o v ↔ zetaRes i o v = .ok 0) := by
  refine ⟨docIff (Or.inl rfl), docIff (Or.inl rfl), docIff (Or.inl rfl), docIff (Or.inl rfl), docIff (Or.inl rfl),
    docIff (Or.inl rfl), ?_⟩
  have h4 : (0.0001 : ℝ) = 1 / 10000 := by norm_num
  unfold Doc.zeta zetaRes
  rw [h4]
  by_cases hm : |i.m| < 1 / 10000
  · rw [if_pos hm, if_pos hm]
    exact ⟨fun h => congrArg _ h.symm, fun h => (Except.ok.inj h).symm⟩
  · rw [if_neg hm, if_neg hm]
    have hpos : 0 < |i.m| := by
      have := not_lt.mp hm
      have h0 : (0 : ℝ) < 1 / 10000 := by norm_num
      linarith
    have hm0 : i.m ≠ 0 := abs_pos.mp hpos
    have hne : 8 * |i.m| * i.m * (i.vol + o.vol) / 2 ≠ 0 := by
      apply div_ne_zero _ (by norm_num)
      exact mul_ne_zero (mul_ne_zero (mul_ne_zero (by norm_num) hpos.ne') hm0) hvol.ne'
    unfold rdiv
    rw [if_neg hne]
    have he : 8 * i.m * |i.m| * ((i.vol + o.vol) / 2) = 8 * |i.m| * i.m * (i.vol + o.vol) / 2 := by ring
    rw [he]
    exact ⟨fun h => congrArg _ h.symm, fun h => (Except.ok.inj h).symm⟩

/-- Value of the printed logarithmic mean for positive, different values. -/
theorem Doc.logMean_pos {a b : ℝ} (ha : 0 < a) (hb : 0 < b) (hab : a ≠ b) :
    Doc.logMean a b = some ((a - b) / Real.log (a / b)) := by
  unfold Doc.logMean
  rw [if_neg]
  rintro (h | h | h)
  · exact hb.ne' h
  · exact absurd (div_pos ha hb) (not_lt.mpr h)
  · exact hab h

/-- The quotient evaluated by the code for positive, different values. -/
theorem docLogQuot_pos {a b : ℝ} (ha : 0 < a) (hb : 0 < b) (hab : a ≠ b) :
    logQuot a b = .ok ((a - b) / Real.log (a / b)) := by
  have hq := div_pos ha hb
  have hl : Real.log (a / b) ≠ 0 := by
    intro h
    rcases Real.log_eq_zero.mp h with h | h | h
    · exact hq.ne' h
    · exact hab ((div_eq_one_iff_eq hb.ne').mp h)
    · linarith
  unfold logQuot
  rw [if_neg hb.ne', if_neg (not_le.mpr hq), if_neg hl]

/-- C111 for the heat transfer coefficient of heat exchangers and condensers: if both terminal temperature differences
are positive and different, the printed equation is the solved one, also for the value from the characteristic
lines. -/
theorem C111_kA_partial (s : HexState) (t : TSet) (kA : ℝ) (hl : 0 < s.o1.T - s.i2.T)
    (f1 f2 : ℝ → PyRes ℝ) (x1 x2 c1 c2 : ℝ) (h1 : f1 x1 = .ok c1) (h2 : f2 x2 = .ok c2) (hc1 : 0 < c1) (hc2 : 0 < c2) :
    (0 < s.i1.T - s.o2.T → s.o1.T - s.i2.T ≠ s.i1.T - s.o2.T →
      (Doc.hexKA s kA ↔ hexKARes s kA = .ok 0) ∧
      (Doc.hexKA s (kA * Doc.fkA c1 c2) ↔ hexKACharRes f1 f2 (.ok x1) (.ok x2) s kA = .ok 0)) ∧
    (0 < s.Tsat - s.o2.T → s.o1.T - s.i2.T ≠ s.Tsat - s.o2.T →
      (Doc.condKA s kA ↔ condKARes t s kA = .ok 0)) := by
  have key : ∀ a b m dh k : ℝ, 0 < a → 0 < b → a ≠ b →
      ((∃ td, Doc.logMean a b = some td ∧ 0 = m * dh + k * td) ↔
        m * dh + k * ((a - b) / Real.log (a / b)) = 0) := by
    intro a b m dh k ha hb hab
    rw [Doc.logMean_pos ha hb hab]
    constructor
    · rintro ⟨td, h, h0⟩
      rw [← Option.some.inj h] at h0
      exact h0.symm
    · intro h
      exact ⟨_, rfl, h.symm⟩
  constructor
  · intro hu hne
    have htd : hexTdLog s.i1.T s.i2.T s.o1.T s.o2.T
        = .ok (((s.o1.T - s.i2.T) - (s.i1.T - s.o2.T)) / Real.log ((s.o1.T - s.i2.T) / (s.i1.T - s.o2.T))) := by
      unfold hexTdLog hexAdjust
      have e1 : ¬ s.i1.T ≤ s.o2.T := by linarith
      have e2 : ¬ s.o1.T ≤ s.i2.T := by linarith
      simp only [if_neg e1, if_neg e2]
      unfold tdLogOf
      rw [if_neg (fun h => hne h.symm)]
      exact docLogQuot_pos hl hu hne
    constructor
    · unfold Doc.hexKA hexKARes
      rw [key _ _ _ _ _ hl hu hne, htd]
      exact ⟨fun h => congrArg _ h, fun h => Except.ok.inj h⟩
    · unfold Doc.hexKA hexKACharRes Doc.fkA
      rw [key _ _ _ _ _ hl hu hne]
      simp only [h1, h2, htd]
      have hs : 0 < 1 / c1 + 1 / c2 := by positivity
      rw [if_neg (by
        rintro (h | h | h)
        · exact hc1.ne' h
        · exact hc2.ne' h
        · exact hs.ne' h)]
      exact ⟨fun h => congrArg _ h, fun h => Except.ok.inj h⟩
  · intro hu hne
    have htd : condTdLog t s.Tsat s.i2.T s.o1.T s.o2.T
        = .ok (((s.o1.T - s.i2.T) - (s.Tsat - s.o2.T)) / Real.log ((s.o1.T - s.i2.T) / (s.Tsat - s.o2.T))) := by
      unfold condTdLog condAdjust
      have e1 : ¬ s.Tsat ≤ s.o2.T := by linarith
      have e2 : ¬ s.o1.T ≤ s.i2.T := by linarith
      simp only [e1, e2, false_and, if_false]
      unfold tdLogOf
      rw [if_neg (fun h => hne h.symm)]
      exact docLogQuot_pos hl hu hne
    unfold Doc.condKA condKARes
    rw [key _ _ _ _ _ hl hu hne, htd]
    exact ⟨fun h => congrArg _ h, fun h => Except.ok.inj h⟩

/-- The hypotheses hold for a heat exchanger with the differences 20 K and 10 K and lines of value 1/2. -/
example : ∃ (s : HexState) (f : ℝ → PyRes ℝ), 0 < s.o1.T - s.i2.T ∧ 0 < s.i1.T - s.o2.T ∧
    s.o1.T - s.i2.T ≠ s.i1.T - s.o2.T ∧ f 1 = .ok (1 / 2) ∧ ∃ kA, 0 < kA ∧ Doc.hexKA s kA := by
  refine ⟨⟨⟨1, 1, 200, 400, 1⟩, ⟨1, 1, 0, 300, 1⟩, ⟨1, 1, 100, 310, 1⟩, ⟨1, 1, 100, 380, 1⟩, none, none, 0⟩,
    fun _ => .ok (1 / 2), by norm_num, by norm_num, by norm_num, rfl, 100 / (-10 / Real.log (1 / 2)), ?_, ?_⟩
  · have : Real.log (1 / 2) < 0 := Real.log_neg (by norm_num) (by norm_num)
    exact div_pos (by norm_num) (div_pos_of_neg_of_neg (by norm_num) this)
  · refine ⟨-10 / Real.log (1 / 2), ?_, ?_⟩
    · rw [Doc.logMean_pos (by norm_num) (by norm_num) (by norm_num)]
      norm_num
    · have : Real.log (1 / 2) < 0 := Real.log_neg (by norm_num) (by norm_num)
      rw [div_mul_cancel₀ _ (div_pos_of_neg_of_neg (by norm_num) this).ne']
      norm_num

/-- C111 is false for the heat transfer coefficient: with equal terminal temperature differences the solved equation
has a solution, where the printed fraction is 0/0; with crossed temperatures the solver takes adjusted temperatures and
accepts a state in which the printed logarithm has no value. -/
theorem C111_kA_false :
    (∃ s : HexState, 0 < s.o1.T - s.i2.T ∧ 0 < s.i1.T - s.o2.T ∧ hexKARes s 10 = .ok 0 ∧ ¬ Doc.hexKA s 10) ∧
    (∃ (s : HexState) (kA : ℝ), s.i1.T < s.o2.T ∧ 0 < kA ∧ hexKARes s kA = .ok 0 ∧ ¬ Doc.hexKA s kA) := by
  constructor
  · refine ⟨⟨⟨1, 1, 200, 400, 1⟩, ⟨1, 1, 0, 300, 1⟩, ⟨1, 1, 100, 310, 1⟩, ⟨1, 1, 100, 390, 1⟩, none, none, 0⟩,
      by norm_num, by norm_num, ?_, ?_⟩
    · unfold hexKARes hexTdLog hexAdjust tdLogOf
      norm_num
    · rintro ⟨td, h, -⟩
      unfold Doc.logMean at h
      norm_num at h
      cases h
  · -- inlet 400 K, cold outlet 410 K: the difference is set to 0.01 K; the lower difference is 0.01 K as well
    refine ⟨⟨⟨1, 1, 200, 400, 1⟩, ⟨1, 1, 0, 300, 1⟩, ⟨1, 1, 100, 300 + 1 / 100, 1⟩, ⟨1, 1, 100, 410, 1⟩,
      none, none, 0⟩, 10000, by norm_num, by norm_num, ?_, ?_⟩
    · unfold hexKARes hexTdLog hexAdjust tdLogOf
      norm_num
    · rintro ⟨td, h, -⟩
      unfold Doc.logMean at h
      norm_num at h
      cases h

/-! ### pipes and simple heat exchangers -/

/-- C111: heat, pressure loss after Darcy-Weisbach (for a mass flow of 0.0001 kg/s at least) and energy balance of solar
collectors and parabolic troughs. After Hazen-Williams it holds in flow direction, from inlet to outlet, as long as the
pressure does not rise. -/
theorem C111_simple_partial (i o : HStream) (c : SolarState) (p : SolarParams) (t : TroughParams)
    (Q L D ks lam : ℝ) (hD : D ≠ 0) (hm : 1 / 10000 ≤ |i.m|) :
    (Doc.simpleQ i o Q ↔ turboPRes i o Q = 0) ∧
    (Doc.darcy i o L D lam ↔ darcyRes i o L D lam = .ok 0) ∧
    (0 ≤ i.m → o.p ≤ i.p → (Doc.hazen i o L ks D ↔ hazenRes i o L ks D = 0)) ∧
    (Doc.solar c p ↔ solarRes c p = 0) ∧ (Doc.trough c t ↔ troughRes c t = 0) := by
  refine ⟨docIff (Or.inl rfl), ?_, ?_, docIff (Or.inl ?_), docIff (Or.inl ?_)⟩
  · unfold Doc.darcy darcyRes
    rw [if_neg (not_lt.mpr hm)]
    unfold rdiv
    rw [if_neg (mul_ne_zero (pow_ne_zero 2 Real.pi_ne_zero) (pow_ne_zero 5 hD))]
    have he : 8 * |i.m| * i.m * ((i.vol + o.vol) / 2) = 8 * |i.m| * i.m * (i.vol + o.vol) / 2 := by ring
    rw [he]
    exact ⟨fun h => congrArg _ h.symm, fun h => (Except.ok.inj h).symm⟩
  · intro h0 hp
    apply docIff
    left
    unfold hazenRes copysign hazenLoss
    rw [if_neg (not_lt.mpr hm), if_pos h0, abs_of_nonneg (by linarith : 0 ≤ i.p - o.p)]
    have e1 : (10.67 : ℝ) = 1067 / 100 := by norm_num
    have e2 : (9.81 : ℝ) = 981 / 100 := by norm_num
    rw [e1, e2]
    ring
  · unfold solarRes; ring
  · unfold troughRes; ring

/-- C111 is false for Hazen-Williams: for a reversed flow in a pipe with a positive loss no pressures at all satisfy the
solved equation, while the printed one only asks for a pressure drop; and for a flow in positive direction the solved
equation accepts a pressure *rise* of the size of the loss, which the printed one excludes. -/
theorem C111_hazen_false (i o : HStream) (L ks D : ℝ) (hm : 1 / 10000 ≤ |i.m|)
    (hloss : 0 < hazenLoss i.m i.vol o.vol L ks D) :
    (i.m < 0 → ∀ pi po, hazenRes { i with p := pi } { o with p := po } L ks D ≠ 0) ∧
    (∃ pi po, Doc.hazen { i with p := pi } { o with p := po } L ks D) ∧
    (0 < i.m → ∃ pi po, pi < po ∧ hazenRes { i with p := pi } { o with p := po } L ks D = 0
      ∧ ¬ Doc.hazen { i with p := pi } { o with p := po } L ks D) := by
  have hd : ∀ pi po, Doc.hazen { i with p := pi } { o with p := po } L ks D
      ↔ 0 = pi - po - hazenLoss i.m i.vol o.vol L ks D := by
    intro pi po
    unfold Doc.hazen hazenLoss
    have e1 : (10.67 : ℝ) = 1067 / 100 := by norm_num
    have e2 : (9.81 : ℝ) = 981 / 100 := by norm_num
    rw [e1, e2]
    constructor <;> intro h <;> linear_combination h
  refine ⟨?_, ?_, ?_⟩
  · intro hneg pi po h
    unfold hazenRes copysign at h
    rw [if_neg (not_lt.mpr hm), if_neg (not_le.mpr hneg)] at h
    have := abs_nonneg (pi - po)
    simp only at h
    linarith
  · refine ⟨hazenLoss i.m i.vol o.vol L ks D, 0, ?_⟩
    rw [hd]; ring
  · intro hpos
    refine ⟨0, hazenLoss i.m i.vol o.vol L ks D, hloss, ?_, ?_⟩
    · unfold hazenRes copysign
      rw [if_neg (not_lt.mpr hm), if_pos hpos.le]
      simp only [zero_sub, abs_neg, abs_of_pos hloss, sub_self]
    · rw [hd]
      intro h
      linarith

/-- The loss is positive for ordinary pipes. -/
example : 0 < hazenLoss (-1) 1 1 100 100 (1 / 10) := by
  unfold hazenLoss
  have h1 : (0 : ℝ) < |(-1 : ℝ)| ^ (1.852 : ℝ) := Real.rpow_pos_of_pos (by norm_num) _
  have h2 : (0 : ℝ) < (100 : ℝ) ^ (1.852 : ℝ) := Real.rpow_pos_of_pos (by norm_num) _
  have h3 : (0 : ℝ) < (1 / 10 : ℝ) ^ (4.871 : ℝ) := Real.rpow_pos_of_pos (by norm_num) _
  have h4 : (0 : ℝ) < ((1 + 1) / 2 : ℝ) ^ (0.852 : ℝ) := Real.rpow_pos_of_pos (by norm_num) _
  positivity

/-- C111 is false for Darcy-Weisbach below 0.0001 kg/s: the solved equation is equality of the pressures, the printed
one has a loss. -/
theorem C111_darcy_false :
    ∃ (i o : HStream) (L D lam : ℝ), i.m ≠ 0 ∧ darcyRes i o L D lam = .ok 0 ∧ ¬ Doc.darcy i o L D lam := by
  refine ⟨⟨1 / 100000, 1, 0, 0, 1⟩, ⟨1 / 100000, 1, 0, 0, 1⟩, 1, 1, 1, by norm_num, ?_, ?_⟩
  · unfold darcyRes
    rw [if_pos (by norm_num)]
    norm_num
  · unfold Doc.darcy
    intro h
    norm_num at h

/-- C111 for the heat transfer coefficient of simple heat exchangers and pipes: if the temperatures at inlet and outlet
are different and on the same side of the ambient temperature, the printed equation is the solved one. -/
theorem C111_simpleKA_partial (i o : HStream) (Tamb kA : ℝ) (hT : i.T ≠ o.T)
    (hside : (Tamb < i.T ∧ Tamb < o.T) ∨ (i.T < Tamb ∧ o.T < Tamb)) :
    Doc.simpleKA i o Tamb kA ↔ simpleKARes i o Tamb kA = .ok 0 := by
  have hq : 0 < (i.T - Tamb) / (o.T - Tamb) := by
    rcases hside with ⟨h1, h2⟩ | ⟨h1, h2⟩
    · exact div_pos (by linarith) (by linarith)
    · exact div_pos_of_neg_of_neg (by linarith) (by linarith)
  have hi : i.T - Tamb ≠ 0 := by rcases hside with ⟨h, -⟩ | ⟨h, -⟩ <;> intro h0 <;> linarith
  have ho : o.T - Tamb ≠ 0 := by rcases hside with ⟨-, h⟩ | ⟨-, h⟩ <;> intro h0 <;> linarith
  have key : ∀ a b : ℝ, b ≠ 0 → 0 < a / b → a ≠ b →
      logQuot a b = .ok ((a - b) / Real.log (a / b)) ∧ Doc.logMean a b = some ((a - b) / Real.log (a / b)) := by
    intro a b hb hab hne
    have hl : Real.log (a / b) ≠ 0 := by
      intro h
      rcases Real.log_eq_zero.mp h with h | h | h
      · exact hab.ne' h
      · exact hne ((div_eq_one_iff_eq hb).mp h)
      · linarith
    constructor
    · unfold logQuot
      rw [if_neg hb, if_neg (not_le.mpr hab), if_neg hl]
    · unfold Doc.logMean
      rw [if_neg]
      rintro (h | h | h)
      · exact hb h
      · exact absurd hab (not_lt.mpr h)
      · exact hne h
  have main : ∃ td, simpleTd i.T o.T Tamb = .ok td ∧ Doc.simpleLog i.T o.T Tamb = some td := by
    unfold simpleTd Doc.simpleLog
    rw [if_neg ho, if_neg (not_lt.mpr hq.le)]
    rcases lt_or_gt_of_ne hT with h | h
    · rw [if_neg (by linarith), if_pos (by linarith : i.T - Tamb < o.T - Tamb), if_neg (by linarith), if_pos h]
      have hq' : 0 < (o.T - Tamb) / (i.T - Tamb) := by
        have := inv_pos.mpr hq
        rwa [inv_div] at this
      have := key _ _ hi hq' (fun h0 => hT (by linarith))
      exact ⟨_, this.1, this.2⟩
    · rw [if_pos (by linarith : i.T - Tamb > o.T - Tamb), if_pos h]
      have := key _ _ ho hq (fun h0 => hT (by linarith))
      exact ⟨_, this.1, this.2⟩
  obtain ⟨td, h1, h2⟩ := main
  unfold Doc.simpleKA simpleKARes
  rw [h1, h2]
  constructor
  · rintro ⟨td', h, h0⟩
    rw [← Option.some.inj h] at h0
    exact congrArg _ h0.symm
  · intro h
    exact ⟨td, rfl, (Except.ok.inj h).symm⟩

/-- C111 is false for the heat transfer coefficient of simple heat exchangers: if inlet and outlet have the same
temperature above the ambient temperature (a fluid which condenses), the printed equation asks for no heat transfer,
the solved one for `kA` times the difference to the ambient temperature; with `kA` different from zero no state
satisfies both. -/
theorem C111_simpleKA_false (i o : HStream) (Tamb kA : ℝ) (hT : i.T = o.T) (ha : o.T ≠ Tamb) (hk : kA ≠ 0) :
    (Doc.simpleKA i o Tamb kA ↔ i.m * (o.h - i.h) = 0) ∧
    (simpleKARes i o Tamb kA = .ok 0 ↔ i.m * (o.h - i.h) = -kA * (o.T - Tamb)) ∧
    ¬ (Doc.simpleKA i o Tamb kA ∧ simpleKARes i o Tamb kA = .ok 0) := by
  have ho : o.T - Tamb ≠ 0 := sub_ne_zero.mpr ha
  have h1 : Doc.simpleKA i o Tamb kA ↔ i.m * (o.h - i.h) = 0 := by
    unfold Doc.simpleKA Doc.simpleLog
    rw [hT, if_neg (lt_irrefl _), if_neg (lt_irrefl _)]
    constructor
    · rintro ⟨td, h, h0⟩
      rw [← Option.some.inj h] at h0
      linarith
    · intro h
      exact ⟨0, rfl, by rw [h]; ring⟩
  have h2 : simpleKARes i o Tamb kA = .ok 0 ↔ i.m * (o.h - i.h) = -kA * (o.T - Tamb) := by
    unfold simpleKARes simpleTd
    rw [hT, if_neg ho, div_self ho, if_neg (by norm_num), if_neg (lt_irrefl _), if_neg (lt_irrefl _)]
    constructor
    · intro h
      have := Except.ok.inj h
      linarith
    · intro h
      have : i.m * (o.h - i.h) + kA * (o.T - Tamb) = 0 := by rw [h]; ring
      exact congrArg Except.ok this
  refine ⟨h1, h2, ?_⟩
  rintro ⟨a, b⟩
  have e1 := h1.mp a
  have e2 := h2.mp b
  rw [e1] at e2
  exact mul_ne_zero (neg_ne_zero.mpr hk) ho e2.symm

/-- Condensing at 373 K in an ambience of 293 K: both equations have solutions, different ones. -/
example : simpleKARes ⟨1, 1, 1000, 373, 1⟩ ⟨1, 1, 200, 373, 1⟩ 293 10 = .ok 0
    ∧ Doc.simpleKA ⟨1, 1, 1000, 373, 1⟩ ⟨1, 1, 1000, 373, 1⟩ 293 10 := by
  constructor
  · rw [(C111_simpleKA_false ⟨1, 1, 1000, 373, 1⟩ ⟨1, 1, 200, 373, 1⟩ 293 10 rfl (by norm_num) (by norm_num)).2.1]
    norm_num
  · rw [(C111_simpleKA_false ⟨1, 1, 1000, 373, 1⟩ ⟨1, 1, 1000, 373, 1⟩ 293 10 rfl (by norm_num) (by norm_num)).1]
    norm_num

end Tespy
