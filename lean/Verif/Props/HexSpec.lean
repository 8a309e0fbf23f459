import Verif.Model.HexSpec
import Verif.Props.TdLog
import Mathlib.Analysis.Convex.SpecificFunctions.Basic
import Mathlib.Analysis.Convex.Slope
import Mathlib.Analysis.Calculus.DSlope
import Mathlib.Analysis.SpecialFunctions.Log.Deriv
import Mathlib.Topology.Order.IntermediateValue
import Mathlib.Tactic.Linarith
import Mathlib.Tactic.Ring
import Mathlib.Tactic.LinearCombination
/-!
C88: heat transferred in two-sided heat exchangers, as determined by one parameter.
-/
namespace Tespy

/-! ### Specification -/
namespace Spec

/-- A counterflow heat exchanger with known inlets and outlet pressures: temperature as a function of enthalpy at the two
outlets, enthalpy of the hot outlet at the temperature of the cold inlet and vice versa. -/
structure HexCase where
  i1 : HStream
  i2 : HStream
  T1 : ℝ → ℝ
  T2 : ℝ → ℝ
  Hh : ℝ
  Hc : ℝ

/-- Streams flow forwards, temperature does not fall with enthalpy. -/
structure HexCase.WF (x : HexCase) : Prop where
  m1 : 0 < x.i1.m
  m2 : 0 < x.i2.m
  mono1 : Monotone x.T1
  mono2 : Monotone x.T2
  hot : x.T1 x.Hh = x.i2.T
  cold : x.T2 x.Hc = x.i1.T

/-- A state of this heat exchanger: the heat given off by the hot side is absorbed by the cold side. -/
structure HexCase.State (x : HexCase) (s : HexState) : Prop where
  i1 : s.i1 = x.i1
  i2 : s.i2 = x.i2
  o1 : s.o1.T = x.T1 s.o1.h
  o2 : s.o2.T = x.T2 s.o2.h
  hot : s.hotMax = some x.Hh
  cold : s.coldMax = some x.Hc
  energy : x.i1.m * (x.i1.h - s.o1.h) = x.i2.m * (s.o2.h - x.i2.h)

/-- Two states with the same outlets. -/
def SameOutlets (s s' : HexState) : Prop := s.o1.h = s'.o1.h ∧ s.o2.h = s'.o2.h

/-- Temperature differences at both ends are positive. -/
def EndsFeasible (s : HexState) : Prop := s.o2.T < s.i1.T ∧ s.i2.T < s.o1.T

end Spec

/-! ### logarithmic mean -/

theorem logMean_mono_left {a a' b : ℝ} (ha : 0 < a) (hb : 0 < b) (h : a ≤ a') : Spec.logMean a b ≤ Spec.logMean a' b := by
  have ha' : 0 < a' := lt_of_lt_of_le ha h
  rcases h.eq_or_lt with rfl | h
  · exact le_refl _
  by_cases e1 : a = b
  · subst e1
    have := (Spec.logMean_between ha' hb).1
    rw [min_eq_right h.le] at this
    simpa [Spec.logMean] using this
  by_cases e2 : a' = b
  · subst e2
    have := (Spec.logMean_between ha hb).2
    rw [max_eq_right h.le] at this
    simpa [Spec.logMean] using this
  have key := strictConcaveOn_log_Ioi.secant_strict_mono (a := b) (x := a) (y := a') (Set.mem_Ioi.2 hb)
    (Set.mem_Ioi.2 ha) (Set.mem_Ioi.2 ha') e1 e2 h
  have inv : ∀ c : ℝ, Spec.logMean c b = if c = b then c else ((Real.log c - Real.log b) / (c - b))⁻¹ := by
    intro c; unfold Spec.logMean; split_ifs
    · rfl
    · rw [inv_div]
  have hp : 0 < (Real.log a' - Real.log b) / (a' - b) := by
    have := Spec.logMean_pos ha' hb
    rw [inv, if_neg e2] at this
    exact inv_pos.1 this
  rw [inv, inv, if_neg e1, if_neg e2]
  exact inv_anti₀ hp key.le

theorem logMean_mono {a a' b b' : ℝ} (ha : 0 < a) (hb : 0 < b) (h : a ≤ a') (h' : b ≤ b') :
    Spec.logMean a b ≤ Spec.logMean a' b' := by
  refine (logMean_mono_left ha hb h).trans ?_
  rw [Spec.logMean_comm, Spec.logMean_comm a']
  exact logMean_mono_left hb (lt_of_lt_of_le ha h) h'

/-- the logarithmic mean with the divided difference of the logarithm at 1 -/
theorem logMean_dslope {a b : ℝ} (ha : 0 < a) (hb : 0 < b) : Spec.logMean a b = b / dslope Real.log 1 (a / b) := by
  unfold Spec.logMean
  split_ifs with h
  · subst h
    rw [div_self ha.ne', dslope_same, Real.deriv_log]; simp
  · have h1 : a / b ≠ 1 := fun e => h ((div_eq_one_iff_eq hb.ne').1 e)
    rw [dslope_of_ne _ h1, slope_def_field, Real.log_one, sub_zero, Real.log_div ha.ne' hb.ne']
    have hl : Real.log a - Real.log b ≠ 0 := by
      have := log_quot_ne ha hb h
      rwa [Real.log_div ha.ne' hb.ne'] at this
    have : a / b - 1 ≠ 0 := sub_ne_zero.2 h1
    have hab : a - b ≠ 0 := sub_ne_zero.2 h
    field_simp

theorem dslope_log_pos {x : ℝ} (hx : 0 < x) : 0 < dslope Real.log 1 x := by
  have := logMean_dslope hx one_pos
  have hp := Spec.logMean_pos hx one_pos
  rw [this, div_one] at hp
  by_contra hn
  exact absurd hp (not_lt.2 (div_nonpos_of_nonneg_of_nonpos zero_le_one (not_lt.1 hn)))

theorem continuousAt_dslope_log {x : ℝ} (hx : 0 < x) : ContinuousAt (dslope Real.log 1) x := by
  by_cases h : x = 1
  · subst h
    exact continuousAt_dslope_same.2 (Real.differentiableAt_log one_ne_zero)
  · exact (continuousAt_dslope_of_ne h).2 (Real.continuousAt_log hx.ne')

theorem continuousOn_logMean {f g : ℝ → ℝ} {s : Set ℝ} (hf : ContinuousOn f s) (hg : ContinuousOn g s)
    (pf : ∀ x ∈ s, 0 < f x) (pg : ∀ x ∈ s, 0 < g x) : ContinuousOn (fun x => Spec.logMean (f x) (g x)) s := by
  have h1 : ContinuousOn (fun x => g x / dslope Real.log 1 (f x / g x)) s := by
    have hq : ContinuousOn (fun x => f x / g x) s := hf.div hg (fun x hx => (pg x hx).ne')
    refine hg.div ?_ (fun x hx => (dslope_log_pos (div_pos (pf x hx) (pg x hx))).ne')
    intro x hx
    exact ContinuousAt.comp_continuousWithinAt (f := fun x => f x / g x)
      (continuousAt_dslope_log (div_pos (pf x hx) (pg x hx))) (hq x hx)
  exact h1.congr (fun x hx => logMean_dslope (pf x hx) (pg x hx))

/-- the logarithmic mean vanishes with one of the differences -/
theorem logMean_small {M ε : ℝ} (hM : 0 < M) (hε : 0 < ε) :
    ∃ δ, 0 < δ ∧ ∀ a, 0 < a → a < δ → Spec.logMean a M ≤ ε := by
  refine ⟨M * Real.exp (-(M / ε)), by positivity, fun a ha h => ?_⟩
  have he : Real.exp (-(M / ε)) ≤ 1 := Real.exp_le_one_iff.2 (by have := div_pos hM hε; linarith)
  have haM : a < M := lt_of_lt_of_le h (by nlinarith)
  have hlog : M / ε < Real.log M - Real.log a := by
    have h1 : a / M < Real.exp (-(M / ε)) := by rw [div_lt_iff₀ hM]; linarith
    have h2 := (Real.log_lt_iff_lt_exp (div_pos ha hM)).2 h1
    rw [Real.log_div ha.ne' hM.ne'] at h2
    linarith
  have hpos : 0 < M / ε := div_pos hM hε
  rw [Spec.logMean_comm]
  unfold Spec.logMean
  rw [if_neg haM.ne', div_le_iff₀ (by linarith)]
  have h3 : M < ε * (Real.log M - Real.log a) := by
    rw [div_lt_iff₀ hε] at hlog
    linarith
  linarith

/-! ### uniqueness -/

/-- more heat lowers the hot outlet and raises the cold one -/
theorem hexState_cases {x : Spec.HexCase} (hx : x.WF) {s s' : HexState} (hs : x.State s) (hs' : x.State s')
    (h1 : s.o2.h < s'.o2.h → s'.o1.h < s.o1.h → False) (h2 : s'.o2.h < s.o2.h → s.o1.h < s'.o1.h → False) :
    Spec.SameOutlets s s' := by
  have e := hs.energy
  have e' := hs'.energy
  have m1 := hx.m1
  have m2 := hx.m2
  rcases lt_trichotomy s.o2.h s'.o2.h with h | h | h
  · exfalso
    refine h1 h ?_
    have : x.i2.m * (s.o2.h - x.i2.h) < x.i2.m * (s'.o2.h - x.i2.h) := mul_lt_mul_of_pos_left (by linarith) m2
    rw [← e, ← e'] at this
    have := (mul_lt_mul_iff_right₀ m1).1 this
    linarith
  · refine ⟨?_, h⟩
    rw [← h, ← e] at e'
    have := mul_left_cancel₀ m1.ne' e'
    linarith
  · exfalso
    refine h2 h ?_
    have : x.i2.m * (s'.o2.h - x.i2.h) < x.i2.m * (s.o2.h - x.i2.h) := mul_lt_mul_of_pos_left (by linarith) m2
    rw [← e, ← e'] at this
    have := (mul_lt_mul_iff_right₀ m1).1 this
    linarith

/-- **C88** One terminal temperature difference determines the heat exchanger: two states which satisfy the energy balance
and the equation of `ttd_u`, `ttd_l` or `ttd_min` have the same outlets (temperature has to rise with enthalpy at the
outlets concerned). -/
theorem C88_ttd_unique (x : Spec.HexCase) (hx : x.WF) (s s' : HexState) (hs : x.State s) (hs' : x.State s') (v : ℝ) :
    (StrictMono x.T2 → hexTtdURes false s v = 0 → hexTtdURes false s' v = 0 → Spec.SameOutlets s s') ∧
    (StrictMono x.T1 → hexTtdLRes s v = 0 → hexTtdLRes s' v = 0 → Spec.SameOutlets s s') ∧
    (StrictMono x.T1 → StrictMono x.T2 → hexTtdMinRes s v = 0 → hexTtdMinRes s' v = 0 → Spec.SameOutlets s s') := by
  have hi1 : s'.i1 = s.i1 := by rw [hs'.i1, hs.i1]
  have hi2 : s'.i2 = s.i2 := by rw [hs'.i2, hs.i2]
  refine ⟨fun m2 h h' => ?_, fun m1 h h' => ?_, fun m1 m2 h h' => ?_⟩
  · unfold hexTtdURes HexState.Tu at h h'
    simp only [Bool.false_eq_true, if_false] at h h'
    rw [hs.o2] at h
    rw [hs'.o2, hi1] at h'
    refine hexState_cases hx hs hs' (fun hl _ => ?_) (fun hl _ => ?_) <;> have := m2 hl <;> linarith
  · unfold hexTtdLRes at h h'
    rw [hs.o1] at h
    rw [hs'.o1, hi2] at h'
    refine hexState_cases hx hs hs' (fun _ hl => ?_) (fun _ hl => ?_) <;> have := m1 hl <;> linarith
  · unfold hexTtdMinRes at h h'
    rw [hs.o1, hs.o2] at h
    rw [hs'.o1, hs'.o2, hi1, hi2] at h'
    have e : min (x.T1 s.o1.h - s.i2.T) (s.i1.T - x.T2 s.o2.h) = min (x.T1 s'.o1.h - s.i2.T) (s.i1.T - x.T2 s'.o2.h) := by
      linarith
    refine hexState_cases hx hs hs' (fun ha hb => ?_) (fun ha hb => ?_)
    · have := m2 ha
      have := m1 hb
      have : min (x.T1 s'.o1.h - s.i2.T) (s.i1.T - x.T2 s'.o2.h) < min (x.T1 s.o1.h - s.i2.T) (s.i1.T - x.T2 s.o2.h) :=
        min_lt_min (by linarith) (by linarith)
      linarith
    · have := m2 ha
      have := m1 hb
      have : min (x.T1 s.o1.h - s.i2.T) (s.i1.T - x.T2 s.o2.h) < min (x.T1 s'.o1.h - s.i2.T) (s.i1.T - x.T2 s'.o2.h) :=
        min_lt_min (by linarith) (by linarith)
      linarith

theorem hexEffMaxRes_eq {x : Spec.HexCase} {s : HexState} (hs : x.State s) (hh : x.Hh ≠ x.i1.h) (hc : x.Hc ≠ x.i2.h)
    (v : ℝ) : hexEffMaxRes s v = .ok (v - max ((s.o1.h - x.i1.h) / (x.Hh - x.i1.h)) ((s.o2.h - x.i2.h) / (x.Hc - x.i2.h)))
    := by
  unfold hexEffMaxRes rdiv
  rw [hs.hot, hs.cold, hs.i1, hs.i2]
  simp only
  rw [if_neg (sub_ne_zero.2 hh)]
  simp only
  rw [if_neg (sub_ne_zero.2 hc)]

/-- **C88** An effectiveness determines the heat exchanger: two states which satisfy the energy balance and the equation of
`eff_cold`, `eff_hot` or `eff_max` have the same outlets. -/
theorem C88_eff_unique (x : Spec.HexCase) (hx : x.WF) (s s' : HexState) (hs : x.State s) (hs' : x.State s') (v : ℝ) :
    (hexEffColdRes s v = .ok 0 → hexEffColdRes s' v = .ok 0 → Spec.SameOutlets s s') ∧
    (hexEffHotRes s v = .ok 0 → hexEffHotRes s' v = .ok 0 → Spec.SameOutlets s s') ∧
    (x.Hh < x.i1.h → x.i2.h < x.Hc → hexEffMaxRes s v = .ok 0 → hexEffMaxRes s' v = .ok 0 → Spec.SameOutlets s s') := by
  have hi1 : s'.i1 = s.i1 := by rw [hs'.i1, hs.i1]
  have hi2 : s'.i2 = s.i2 := by rw [hs'.i2, hs.i2]
  refine ⟨fun h h' => ?_, fun h h' => ?_, fun hh hc h h' => ?_⟩
  · unfold hexEffColdRes at h h'
    rw [hs.cold] at h
    rw [hs'.cold, hi2] at h'
    simp only [Except.ok.injEq] at h h'
    refine hexState_cases hx hs hs' (fun ha _ => ?_) (fun ha _ => ?_) <;> linarith
  · unfold hexEffHotRes at h h'
    rw [hs.hot] at h
    rw [hs'.hot, hi1] at h'
    simp only [Except.ok.injEq] at h h'
    refine hexState_cases hx hs hs' (fun _ ha => ?_) (fun _ ha => ?_) <;> linarith
  · rw [hexEffMaxRes_eq hs hh.ne hc.ne'] at h
    rw [hexEffMaxRes_eq hs' hh.ne hc.ne'] at h'
    simp only [Except.ok.injEq] at h h'
    have dh : x.Hh - x.i1.h < 0 := by linarith
    have dc : 0 < x.Hc - x.i2.h := by linarith
    refine hexState_cases hx hs hs' (fun ha hb => ?_) (fun ha hb => ?_)
    · have l1 : (s.o1.h - x.i1.h) / (x.Hh - x.i1.h) < (s'.o1.h - x.i1.h) / (x.Hh - x.i1.h) :=
        (div_lt_div_right_of_neg dh).2 (by linarith)
      have l2 : (s.o2.h - x.i2.h) / (x.Hc - x.i2.h) < (s'.o2.h - x.i2.h) / (x.Hc - x.i2.h) :=
        (div_lt_div_iff_of_pos_right dc).2 (by linarith)
      have := max_lt_max l1 l2
      linarith
    · have l1 : (s'.o1.h - x.i1.h) / (x.Hh - x.i1.h) < (s.o1.h - x.i1.h) / (x.Hh - x.i1.h) :=
        (div_lt_div_right_of_neg dh).2 (by linarith)
      have l2 : (s'.o2.h - x.i2.h) / (x.Hc - x.i2.h) < (s.o2.h - x.i2.h) / (x.Hc - x.i2.h) :=
        (div_lt_div_iff_of_pos_right dc).2 (by linarith)
      have := max_lt_max l1 l2
      linarith

theorem hexKARes_eq {s : HexState} (hf : Spec.EndsFeasible s) (kA : ℝ) :
    hexKARes s kA = .ok (s.i1.m * (s.o1.h - s.i1.h) + kA * Spec.logMean (s.i1.T - s.o2.T) (s.o1.T - s.i2.T)) := by
  obtain ⟨td, h1, h2, -⟩ := C40_heat_exchanger s.i1.T s.i2.T s.o1.T s.o2.T
  unfold hexKARes
  rw [h1, h2]
  simp only [Spec.guarded, if_pos (sub_pos.2 hf.1), if_pos (sub_pos.2 hf.2)]

/-- **C88** The heat transfer coefficient times area determines the heat exchanger among states with positive terminal
temperature differences, with or without phase change. -/
theorem C88_kA_unique_partial (x : Spec.HexCase) (hx : x.WF) (s s' : HexState) (hs : x.State s) (hs' : x.State s') (kA : ℝ)
    (hk : 0 ≤ kA) (hf : Spec.EndsFeasible s) (hf' : Spec.EndsFeasible s')
    (h : hexKARes s kA = .ok 0) (h' : hexKARes s' kA = .ok 0) : Spec.SameOutlets s s' := by
  rw [hexKARes_eq hf] at h
  rw [hexKARes_eq hf'] at h'
  simp only [Except.ok.injEq] at h h'
  obtain ⟨f1, f2⟩ := hf
  obtain ⟨f1', f2'⟩ := hf'
  rw [hs.i1, hs.i2] at h
  rw [hs'.i1, hs'.i2] at h'
  rw [hs.i1] at f1; rw [hs.i2] at f2; rw [hs'.i1] at f1'; rw [hs'.i2] at f2'
  rw [hs.o1, hs.o2] at h
  rw [hs'.o1, hs'.o2] at h'
  rw [hs.o2] at f1; rw [hs.o1] at f2; rw [hs'.o2] at f1'; rw [hs'.o1] at f2'
  have step : ∀ a b c d : ℝ, a < c → d < b → x.T2 a < x.i1.T → x.T2 c < x.i1.T → x.i2.T < x.T1 b → x.i2.T < x.T1 d →
      x.i1.m * (b - x.i1.h) + kA * Spec.logMean (x.i1.T - x.T2 a) (x.T1 b - x.i2.T) = 0 →
      x.i1.m * (d - x.i1.h) + kA * Spec.logMean (x.i1.T - x.T2 c) (x.T1 d - x.i2.T) = 0 → False := by
    intro a b c d hac hdb ta tc tb td e1 e2
    have hm : Spec.logMean (x.i1.T - x.T2 c) (x.T1 d - x.i2.T) ≤ Spec.logMean (x.i1.T - x.T2 a) (x.T1 b - x.i2.T) :=
      logMean_mono (by linarith) (by linarith) (by have := hx.mono2 hac.le; linarith)
        (by have := hx.mono1 hdb.le; linarith)
    have h1 := mul_le_mul_of_nonneg_left hm hk
    have h2 : x.i1.m * (d - x.i1.h) < x.i1.m * (b - x.i1.h) := mul_lt_mul_of_pos_left (by linarith) hx.m1
    linarith
  exact hexState_cases hx hs hs' (fun ha hb => step _ _ _ _ ha hb f1 f1' f2 f2' h h')
    (fun ha hb => step _ _ _ _ ha hb f1' f1 f2' f2 h' h)

/-! ### existence -/

/-- the state at which a heat flow `q` is transferred -/
noncomputable def hexAt (x : Spec.HexCase) (q : ℝ) : HexState where
  i1 := x.i1
  i2 := x.i2
  o1 := ⟨x.i1.m, 0, x.i1.h - q / x.i1.m, x.T1 (x.i1.h - q / x.i1.m), 0⟩
  o2 := ⟨x.i2.m, 0, x.i2.h + q / x.i2.m, x.T2 (x.i2.h + q / x.i2.m), 0⟩
  hotMax := some x.Hh
  coldMax := some x.Hc
  Tsat := 0

theorem hexAt_state (x : Spec.HexCase) (hx : x.WF) (q : ℝ) : x.State (hexAt x q) where
  i1 := rfl
  i2 := rfl
  o1 := rfl
  o2 := rfl
  hot := rfl
  cold := rfl
  energy := by
    have := hx.m1.ne'
    have := hx.m2.ne'
    simp only [hexAt]
    field_simp
    ring

/-- the difference at one end becomes small before the heat has its maximum -/
theorem kA_bound {u l : ℝ → ℝ} {qc kA M : ℝ} (hqc : 0 < qc) (hk : 0 < kA) (hM : 0 < M) (hu : ContinuousAt u qc)
    (hu0 : u qc = 0) (hup : ∀ q, 0 ≤ q → q < qc → 0 < u q) (hlp : ∀ q, 0 ≤ q → q < qc → 0 < l q)
    (hlM : ∀ q, 0 ≤ q → q < qc → l q ≤ M) : ∃ q, 0 < q ∧ q < qc ∧ kA * Spec.logMean (u q) (l q) ≤ q := by
  obtain ⟨δ, hδ, hsm⟩ := logMean_small hM (show 0 < qc / (2 * kA) by positivity)
  have hev := Metric.continuousAt_iff.1 hu δ hδ
  obtain ⟨η, hη, hball⟩ := hev
  refine ⟨max (qc / 2) (qc - η / 2), lt_of_lt_of_le (by linarith) (le_max_left _ _), max_lt (by linarith) (by linarith), ?_⟩
  set q := max (qc / 2) (qc - η / 2) with hq
  have q0 : 0 < q := lt_of_lt_of_le (by linarith) (le_max_left _ _)
  have q1 : q < qc := max_lt (by linarith) (by linarith)
  have hd : dist q qc < η := by
    rw [Real.dist_eq, abs_sub_comm, abs_of_pos (by linarith)]
    have := le_max_right (qc / 2) (qc - η / 2)
    linarith
  have hb := hball hd
  rw [hu0, Real.dist_eq, sub_zero, abs_of_pos (hup q q0.le q1)] at hb
  have h1 := hsm (u q) (hup q q0.le q1) hb
  have h2 : Spec.logMean (u q) (l q) ≤ Spec.logMean (u q) M :=
    logMean_mono (hup q q0.le q1) (hlp q q0.le q1) (le_refl _) (hlM q q0.le q1)
  have h3 : kA * Spec.logMean (u q) (l q) ≤ kA * (qc / (2 * kA)) := mul_le_mul_of_nonneg_left (h2.trans h1) hk.le
  have h4 : kA * (qc / (2 * kA)) = qc / 2 := by field_simp
  rw [h4] at h3
  exact h3.trans (le_max_left _ _)

/-- **C88** For every positive heat transfer coefficient times area there is a state of the heat exchanger with positive
terminal temperature differences which satisfies the energy balance and the equation of `kA`. The temperatures have to be
continuous in the enthalpy, and the streams able to exchange heat: at the inlet enthalpy each outlet would be on its
side of the other inlet temperature, and remains there until `Hc`, `Hh`. -/
theorem C88_kA_exists (x : Spec.HexCase) (hx : x.WF) (c1 : Continuous x.T1) (c2 : Continuous x.T2)
    (hh : x.Hh < x.i1.h) (hc : x.i2.h < x.Hc) (s1 : ∀ h, x.Hh < h → x.i2.T < x.T1 h) (s2 : ∀ h, h < x.Hc → x.T2 h < x.i1.T)
    (kA : ℝ) (hk : 0 < kA) :
    ∃ s, x.State s ∧ Spec.EndsFeasible s ∧ hexKARes s kA = .ok 0 := by
  have m1 := hx.m1
  have m2 := hx.m2
  set u : ℝ → ℝ := fun q => x.i1.T - x.T2 (x.i2.h + q / x.i2.m) with hu
  set l : ℝ → ℝ := fun q => x.T1 (x.i1.h - q / x.i1.m) - x.i2.T with hl
  have cu : Continuous u := by
    rw [hu]
    exact continuous_const.sub (c2.comp (continuous_const.add (continuous_id.div_const _)))
  have cl : Continuous l := by
    rw [hl]
    exact (c1.comp (continuous_const.sub (continuous_id.div_const _))).sub continuous_const
  set qc := x.i2.m * (x.Hc - x.i2.h) with hqc
  set qh := x.i1.m * (x.i1.h - x.Hh) with hqh
  have pc : 0 < qc := mul_pos m2 (by linarith)
  have ph : 0 < qh := mul_pos m1 (by linarith)
  have up : ∀ q, q < qc → 0 < u q := by
    intro q h
    have : q / x.i2.m < x.Hc - x.i2.h := by rw [div_lt_iff₀ m2, mul_comm]; exact h
    have := s2 (x.i2.h + q / x.i2.m) (by linarith)
    simp only [hu]; linarith
  have lp : ∀ q, q < qh → 0 < l q := by
    intro q h
    have : q / x.i1.m < x.i1.h - x.Hh := by rw [div_lt_iff₀ m1, mul_comm]; exact h
    have := s1 (x.i1.h - q / x.i1.m) (by linarith)
    simp only [hl]; linarith
  have u0 : u qc = 0 := by
    simp only [hu, hqc]
    rw [mul_div_cancel_left₀ _ m2.ne', add_sub_cancel, hx.cold, sub_self]
  have l0 : l qh = 0 := by
    simp only [hl, hqh]
    rw [mul_div_cancel_left₀ _ m1.ne', sub_sub_cancel, hx.hot, sub_self]
  have uM : ∀ q, 0 ≤ q → u q ≤ u 0 := by
    intro q h
    simp only [hu]
    have : x.T2 (x.i2.h + 0 / x.i2.m) ≤ x.T2 (x.i2.h + q / x.i2.m) :=
      hx.mono2 (by have := div_nonneg h m2.le; simp; linarith)
    linarith
  have lM : ∀ q, 0 ≤ q → l q ≤ l 0 := by
    intro q h
    simp only [hl]
    have : x.T1 (x.i1.h - q / x.i1.m) ≤ x.T1 (x.i1.h - 0 / x.i1.m) :=
      hx.mono1 (by have := div_nonneg h m1.le; simp; linarith)
    linarith
  obtain ⟨q1, a1, a2, a3, a4⟩ : ∃ q1, 0 < q1 ∧ q1 < qc ∧ q1 < qh ∧ kA * Spec.logMean (u q1) (l q1) ≤ q1 := by
    rcases le_total qc qh with h | h
    · obtain ⟨q, b1, b2, b3⟩ := kA_bound (u := u) (l := l) pc hk (lp 0 ph) cu.continuousAt u0 (fun q _ hq => up q hq)
        (fun q _ hq => lp q (by linarith)) (fun q h0 _ => lM q h0)
      exact ⟨q, b1, b2, by linarith, b3⟩
    · obtain ⟨q, b1, b2, b3⟩ := kA_bound (u := l) (l := u) ph hk (up 0 pc) cl.continuousAt l0 (fun q _ hq => lp q hq)
        (fun q _ hq => up q (by linarith)) (fun q h0 _ => uM q h0)
      exact ⟨q, b1, by linarith, b2, by rwa [Spec.logMean_comm]⟩
  have hcont : ContinuousOn (fun q => q - kA * Spec.logMean (u q) (l q)) (Set.Icc 0 q1) := by
    refine continuousOn_id.sub (continuousOn_const.mul (continuousOn_logMean cu.continuousOn cl.continuousOn ?_ ?_))
    · intro q hq; exact up q (lt_of_le_of_lt hq.2 a2)
    · intro q hq; exact lp q (lt_of_le_of_lt hq.2 a3)
  have hiv := intermediate_value_Icc a1.le hcont
  have hmem : (0 : ℝ) ∈ Set.Icc ((fun q => q - kA * Spec.logMean (u q) (l q)) 0)
      ((fun q => q - kA * Spec.logMean (u q) (l q)) q1) := by
    constructor
    · have := mul_pos hk (Spec.logMean_pos (up 0 pc) (lp 0 ph))
      simp only; linarith
    · simp only; linarith
  obtain ⟨q, hq, h0⟩ := hiv hmem
  have hfe : Spec.EndsFeasible (hexAt x q) := by
    have e1 := up q (lt_of_le_of_lt hq.2 a2)
    have e2 := lp q (lt_of_le_of_lt hq.2 a3)
    simp only [hu] at e1
    simp only [hl] at e2
    constructor
    · simp only [hexAt]; linarith
    · simp only [hexAt]; linarith
  refine ⟨hexAt x q, hexAt_state x hx q, hfe, ?_⟩
  rw [hexKARes_eq hfe]
  congr 1
  simp only [hu, hl] at h0
  simp only [hexAt]
  have : x.i1.m * (x.i1.h - q / x.i1.m - x.i1.h) = -q := by
    have := m1.ne'
    field_simp
    ring
  rw [this]
  linarith

/-! ### feasibility -/

/-- **C88** What an effectiveness guarantees. A cold side effectiveness up to 1 keeps the cold outlet below the hot inlet, a
hot side effectiveness up to 1 the hot outlet above the cold inlet, each at its own end only. A maximum effectiveness up to 1
guarantees both, and if temperature rises with enthalpy, more than 1 guarantees a violation. -/
theorem C88_eff_feasible (x : Spec.HexCase) (hx : x.WF) (hh : x.Hh < x.i1.h) (hc : x.i2.h < x.Hc) (s : HexState)
    (hs : x.State s) (v : ℝ) :
    (hexEffColdRes s v = .ok 0 → v ≤ 1 → s.o2.T ≤ s.i1.T) ∧
    (hexEffHotRes s v = .ok 0 → v ≤ 1 → s.i2.T ≤ s.o1.T) ∧
    (hexEffMaxRes s v = .ok 0 → v ≤ 1 → s.o2.T ≤ s.i1.T ∧ s.i2.T ≤ s.o1.T) ∧
    (StrictMono x.T1 → StrictMono x.T2 → hexEffMaxRes s v = .ok 0 → 1 < v → s.i1.T < s.o2.T ∨ s.o1.T < s.i2.T) := by
  have dh : x.Hh - x.i1.h < 0 := by linarith
  have dc : 0 < x.Hc - x.i2.h := by linarith
  have cold : s.o2.h ≤ x.Hc → s.o2.T ≤ s.i1.T := fun h => by
    rw [hs.o2, hs.i1, ← hx.cold]; exact hx.mono2 h
  have hot : x.Hh ≤ s.o1.h → s.i2.T ≤ s.o1.T := fun h => by
    rw [hs.o1, hs.i2, ← hx.hot]; exact hx.mono1 h
  refine ⟨fun h hv => cold ?_, fun h hv => hot ?_, fun h hv => ?_, fun m1 m2 h hv => ?_⟩
  · unfold hexEffColdRes at h
    rw [hs.cold, hs.i2] at h
    simp only [Except.ok.injEq] at h
    nlinarith
  · unfold hexEffHotRes at h
    rw [hs.hot, hs.i1] at h
    simp only [Except.ok.injEq] at h
    nlinarith
  · rw [hexEffMaxRes_eq hs hh.ne hc.ne'] at h
    simp only [Except.ok.injEq] at h
    have hm : max ((s.o1.h - x.i1.h) / (x.Hh - x.i1.h)) ((s.o2.h - x.i2.h) / (x.Hc - x.i2.h)) ≤ 1 := by linarith
    obtain ⟨a, b⟩ := max_le_iff.1 hm
    rw [div_le_one_of_neg dh] at a
    rw [div_le_one dc] at b
    exact ⟨cold (by linarith), hot (by linarith)⟩
  · rw [hexEffMaxRes_eq hs hh.ne hc.ne'] at h
    simp only [Except.ok.injEq] at h
    have hm : 1 < max ((s.o1.h - x.i1.h) / (x.Hh - x.i1.h)) ((s.o2.h - x.i2.h) / (x.Hc - x.i2.h)) := by linarith
    rcases lt_max_iff.1 hm with a | a
    · right
      rw [one_lt_div_of_neg dh] at a
      rw [hs.o1, hs.i2, ← hx.hot]; exact m1 (by linarith)
    · left
      rw [one_lt_div dc] at a
      rw [hs.o2, hs.i1, ← hx.cold]; exact m2 (by linarith)

/-- **C88** The entries of the Jacobian for the enthalpy of the own inlet are the derivatives of the equations. -/
theorem C88_eff_derivs (s : HexState) (v : ℝ) (Hc Hh : ℝ) (hc : s.coldMax = some Hc) (hh : s.hotMax = some Hh) :
    (∃ F : ℝ → ℝ, (∀ h, hexEffColdRes { s with i2 := { s.i2 with h := h } } v = .ok (F h)) ∧
      HasDerivAt F (effColdEntry v) s.i2.h) ∧
    (∃ F : ℝ → ℝ, (∀ h, hexEffHotRes { s with i1 := { s.i1 with h := h } } v = .ok (F h)) ∧
      HasDerivAt F (effHotEntry v) s.i1.h) := by
  constructor
  · refine ⟨fun h => v * (Hc - h) - (s.o2.h - h), fun h => ?_, ?_⟩
    · simp only [hexEffColdRes, hc]
    · have h1 := (((hasDerivAt_id s.i2.h).const_sub Hc).const_mul v).sub ((hasDerivAt_id s.i2.h).const_sub s.o2.h)
      refine h1.congr_deriv ?_
      unfold effColdEntry; ring
  · refine ⟨fun h => v * (Hh - h) - (s.o1.h - h), fun h => ?_, ?_⟩
    · simp only [hexEffHotRes, hh]
    · have h1 := (((hasDerivAt_id s.i1.h).const_sub Hh).const_mul v).sub ((hasDerivAt_id s.i1.h).const_sub s.o1.h)
      refine h1.congr_deriv ?_
      unfold effHotEntry; ring

/-! ### examples and refutations -/

/-- two streams of heat capacity 1, mass flows `m1` and `m2`, inlets at 100 and 0 -/
def hexEx (m1 m2 : ℝ) : Spec.HexCase where
  i1 := ⟨m1, 1, 100, 100, 1⟩
  i2 := ⟨m2, 1, 0, 0, 1⟩
  T1 := id
  T2 := id
  Hh := 0
  Hc := 100

theorem hexEx_wf {m1 m2 : ℝ} (h1 : 0 < m1) (h2 : 0 < m2) : (hexEx m1 m2).WF :=
  ⟨h1, h2, monotone_id, monotone_id, rfl, rfl⟩

/-- all of the specifications met by one state: 40 units of heat between flows of 1 and 2 -/
example : (hexEx 1 2).WF ∧ (hexEx 1 2).State (hexAt (hexEx 1 2) 40) ∧ Spec.EndsFeasible (hexAt (hexEx 1 2) 40) ∧
    hexTtdURes false (hexAt (hexEx 1 2) 40) 80 = 0 ∧ hexTtdLRes (hexAt (hexEx 1 2) 40) 60 = 0 ∧
    hexTtdMinRes (hexAt (hexEx 1 2) 40) 60 = 0 ∧ hexEffColdRes (hexAt (hexEx 1 2) 40) (1 / 5) = .ok 0 ∧
    hexEffHotRes (hexAt (hexEx 1 2) 40) (2 / 5) = .ok 0 ∧ hexEffMaxRes (hexAt (hexEx 1 2) 40) (2 / 5) = .ok 0 ∧
    StrictMono (hexEx 1 2).T1 := by
  have wf : (hexEx 1 2).WF := hexEx_wf (by norm_num) (by norm_num)
  have st := hexAt_state _ wf 40
  refine ⟨wf, st, ?_, ?_, ?_, ?_, ?_, ?_, ?_, strictMono_id⟩
  · constructor <;> simp [hexAt, hexEx] <;> norm_num
  · simp [hexTtdURes, HexState.Tu, hexAt, hexEx]; norm_num
  · simp [hexTtdLRes, hexAt, hexEx]; norm_num
  · simp [hexTtdMinRes, hexAt, hexEx]; norm_num
  · simp [hexEffColdRes, hexAt, hexEx]; norm_num
  · simp [hexEffHotRes, hexAt, hexEx]; norm_num
  · rw [hexEffMaxRes_eq st (by simp [hexEx]) (by simp [hexEx])]
    simp [hexAt, hexEx]; norm_num

/-- the hypotheses of `C88_kA_exists` are met -/
example : ∃ s, (hexEx 1 2).State s ∧ Spec.EndsFeasible s ∧ hexKARes s 7 = .ok 0 :=
  C88_kA_exists (hexEx 1 2) (hexEx_wf (by norm_num) (by norm_num)) continuous_id continuous_id (by simp [hexEx])
    (by simp [hexEx]) (fun _ h => h) (fun _ h => h) 7 (by norm_num)

/-- **C88**, refuted: with one sided effectiveness between 0 and 1 the result may violate the second law. Cooling a flow of 1
with a flow of 10 at `eff_cold = 0.9` takes the hot outlet 800 K below the cold inlet. -/
theorem C88_eff_second_law_false : ∃ x : Spec.HexCase, x.WF ∧ x.Hh < x.i1.h ∧ x.i2.h < x.Hc ∧ ∃ s, x.State s ∧
    hexEffColdRes s (9 / 10) = .ok 0 ∧ s.o1.T + 800 = s.i2.T ∧ s.o1.T < s.i2.T := by
  have wf : (hexEx 1 10).WF := hexEx_wf (by norm_num) (by norm_num)
  refine ⟨hexEx 1 10, wf, by simp [hexEx], by simp [hexEx], hexAt (hexEx 1 10) 900, hexAt_state _ wf 900, ?_, ?_, ?_⟩
  · simp [hexEffColdRes, hexAt, hexEx]; norm_num
  · simp [hexAt, hexEx]; norm_num
  · simp [hexAt, hexEx]; norm_num

/-- **C88**, refuted: the equation of `kA` does not determine the heat exchanger. Where both terminal differences are
negative, the code calculates with 0.01 and 0.02 K, and there is a second solution which cools the hot stream below the cold
inlet. -/
theorem C88_kA_unique_false : ∃ (x : Spec.HexCase) (s s' : HexState) (kA : ℝ), x.WF ∧ 0 < kA ∧ x.State s ∧ x.State s' ∧
    hexKARes s kA = .ok 0 ∧ hexKARes s' kA = .ok 0 ∧ Spec.EndsFeasible s ∧ s'.i1.T < s'.o2.T ∧ s'.o1.T < s'.i2.T := by
  have wf : (hexEx 1 1).WF := hexEx_wf (by norm_num) (by norm_num)
  have lp : 0 < Spec.logMean (0.01) (0.02) := Spec.logMean_pos (by norm_num) (by norm_num)
  have kp : 0 < 150 / Spec.logMean (0.01) (0.02) := div_pos (by norm_num) lp
  obtain ⟨s, hs, hf, hk⟩ := C88_kA_exists (hexEx 1 1) wf continuous_id continuous_id (by simp [hexEx])
    (by simp [hexEx]) (fun _ h => h) (fun _ h => h) _ kp
  refine ⟨hexEx 1 1, s, hexAt (hexEx 1 1) 150, _, wf, kp, hs, hexAt_state _ wf 150, hk, ?_, hf, ?_, ?_⟩
  · obtain ⟨td, h1, h2, -⟩ := C40_heat_exchanger (hexAt (hexEx 1 1) 150).i1.T (hexAt (hexEx 1 1) 150).i2.T
      (hexAt (hexEx 1 1) 150).o1.T (hexAt (hexEx 1 1) 150).o2.T
    have g1 : Spec.guarded ((hexAt (hexEx 1 1) 150).i1.T - (hexAt (hexEx 1 1) 150).o2.T) (0.01) = 0.01 := by
      rw [Spec.guarded, if_neg]; simp [hexAt, hexEx]; norm_num
    have g2 : Spec.guarded ((hexAt (hexEx 1 1) 150).o1.T - (hexAt (hexEx 1 1) 150).i2.T) (0.02) = 0.02 := by
      rw [Spec.guarded, if_neg]; simp [hexAt, hexEx]; norm_num
    unfold hexKARes
    rw [h1]
    have e : td = Spec.logMean (0.01) (0.02) := by rw [h2, g1, g2]
    rw [e]
    simp only [Except.ok.injEq]
    rw [div_mul_cancel₀ _ lp.ne']
    simp [hexAt, hexEx]
  · simp [hexAt, hexEx]; norm_num
  · simp [hexAt, hexEx]; norm_num

/-- an evaporating cold stream: 50 K of liquid, evaporation at 50, then vapour; the hot stream enters at 60 -/
noncomputable def hexEvap : Spec.HexCase where
  i1 := ⟨3, 1, 60, 60, 1⟩
  i2 := ⟨1, 1, 0, 0, 1⟩
  T1 := id
  T2 := fun h => max (min h 50) (h - 100)
  Hh := 0
  Hc := 160

/-- **C88**, refuted: a state with positive differences at both ends and therefore with a positive logarithmic mean may be
impossible all the same: where the cold stream evaporates, it is warmer than the hot stream at the same place. -/
theorem C88_pinch_false : ∃ x : Spec.HexCase, x.WF ∧ ∃ s, x.State s ∧ hexTtdURes false s 10 = 0 ∧ hexTtdLRes s 10 = 0 ∧
    hexKARes s 15 = .ok 0 ∧ Spec.EndsFeasible s ∧ ∃ t : ℝ, 0 < t ∧ t < 1 ∧
      x.T1 (s.o1.h + t * (s.i1.h - s.o1.h)) + 20 < x.T2 (s.i2.h + t * (s.o2.h - s.i2.h)) := by
  have wf : hexEvap.WF := by
    refine ⟨by norm_num [hexEvap], by norm_num [hexEvap], monotone_id, ?_, rfl, by norm_num [hexEvap]⟩
    intro a b h
    exact max_le_max (min_le_min_right _ h) (by linarith)
  have fe : Spec.EndsFeasible (hexAt hexEvap 150) := by
    constructor <;> norm_num [hexAt, hexEvap]
  refine ⟨hexEvap, wf, hexAt hexEvap 150, hexAt_state _ wf 150, ?_, ?_, ?_, fe, 1 / 3, by norm_num, by norm_num, ?_⟩
  · norm_num [hexTtdURes, HexState.Tu, hexAt, hexEvap]
  · norm_num [hexTtdLRes, hexAt, hexEvap]
  · rw [hexKARes_eq fe]
    norm_num [hexAt, hexEvap, Spec.logMean]
  · norm_num [hexAt, hexEvap]

end Tespy
