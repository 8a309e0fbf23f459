import Verif.Model.SpecDrift
import Verif.Props.Reported
import Verif.Props.Reactors

/-!
C92: values specified for the parameters of components are not changed by a calculation.
-/
namespace Tespy

namespace Spec

/-- Conditions under which the reported value of a parameter is the one its equation asks for: mass flow above 1e-4 kg/s
for friction coefficients; positive terminal temperature differences for heat transfer coefficients of two-sided heat
exchangers; temperatures on one side of the ambient temperature and heat flowing to the colder side for those of simple
heat exchangers; a saturated hot inlet for `ttd_min` of condensers; a defined maximum enthalpy for effectivenesses. -/
def Regular : EndState → String → Prop
  | .hex s, n =>
    (n = "zeta1" → 1 / 10000 < s.i1.m) ∧ (n = "zeta2" → 1 / 10000 < s.i2.m) ∧
    (n = "kA" → 0 < s.i1.T - s.o2.T ∧ 0 < s.o1.T - s.i2.T) ∧
    (n = "eff_hot" → s.hotMax ≠ none) ∧ (n = "eff_cold" → s.coldMax ≠ none)
  | .condenser _ s, n =>
    (n = "zeta1" → 1 / 10000 < s.i1.m) ∧ (n = "zeta2" → 1 / 10000 < s.i2.m) ∧
    (n = "kA" → 0 < s.Tsat - s.o2.T ∧ 0 < s.o1.T - s.i2.T) ∧
    (n = "eff_hot" → s.hotMax ≠ none) ∧ (n = "eff_cold" → s.coldMax ≠ none) ∧
    (n = "ttd_min" → s.i1.T = s.Tsat)
  | .valve i _, n => n = "zeta" → 1 / 10000 < i.m
  | .simple i o Tamb, n =>
    (n = "zeta" → 1 / 10000 < i.m) ∧
    (n = "kA" → ∀ Ta, Tamb = some Ta → 0 < (i.T - Ta) * (o.T - Ta) ∧ i.m * (o.h - i.h) * (i.T - Ta) ≤ 0)
  | .fuelCell v, _ => 0 < v.MH2
  | .electrolyzer v, _ => 0 < v.MH2
  | _, _ => True

/-- The change of the residual per unit of the parameter. -/
noncomputable def sensitivity : EndState → String → ℝ
  | .hex s, n =>
    if n = "Q" ∨ n = "dp1" ∨ n = "dp2" then -1
    else if n = "pr1" then s.i1.p
    else if n = "pr2" then s.i2.p
    else if n = "kA" then logMean (s.i1.T - s.o2.T) (s.o1.T - s.i2.T)
    else if n = "eff_hot" then s.hotMax.getD 0 - s.i1.h
    else if n = "eff_cold" then s.coldMax.getD 0 - s.i2.h
    else 1
  | .condenser _ s, n =>
    if n = "Q" ∨ n = "dp1" ∨ n = "dp2" then -1
    else if n = "pr1" then s.i1.p
    else if n = "pr2" then s.i2.p
    else if n = "kA" then logMean (s.Tsat - s.o2.T) (s.o1.T - s.i2.T)
    else if n = "eff_hot" then s.hotMax.getD 0 - s.i1.h
    else if n = "eff_cold" then s.coldMax.getD 0 - s.i2.h
    else 1
  | .pump i o _, n => if n = "P" then -1 else if n = "pr" then i.p else o.h - i.h
  | .turbine i _ his, n => if n = "P" then -1 else if n = "pr" then i.p else his - i.h
  | .valve i _, n => if n = "pr" then i.p else 1
  | .simple i o Tamb, n =>
    if n = "Q" then -1 else if n = "pr" then i.p
    else if n = "kA" then
      if Tamb.getD 0 < i.T then logMean (i.T - Tamb.getD 0) (o.T - Tamb.getD 0)
      else -logMean (Tamb.getD 0 - i.T) (Tamb.getD 0 - o.T)
    else 1
  | .fuelCell v, n =>
    if n = "Q" then 1 else if n = "pr" then v.loop.pIn else if n = "e" then -v.hydrogen.m
    else v.hydrogen.m * (286000 / v.MH2)
  | .electrolyzer v, n =>
    if n = "Q" then 1 else if n = "pr" then v.loop.pIn else if n = "e" then -v.hydrogen.m else v.P

/-- The component has an equation for a specified value of the parameter. -/
def HasEquation (e : EndState) (n : String) : Prop := ∃ x res, e.residual n x = some res

end Spec

theorem foldl_put_not_mem (l : List (String × Option ℝ)) (t : ParamTable) (n : String) (h : n ∉ l.map Prod.fst) :
    l.foldl ParamTable.put t n = t n := by
  induction l generalizing t with
  | nil => rfl
  | cons w l ih =>
    simp only [List.map_cons, List.mem_cons, not_or] at h
    rw [List.foldl_cons, ih _ h.2]
    simp [ParamTable.put, h.1]

theorem foldl_put_mem (l : List (String × Option ℝ)) (hn : (l.map Prod.fst).Nodup) (t : ParamTable) (w : String × Option ℝ)
    (h : w ∈ l) : l.foldl ParamTable.put t w.1 = ⟨w.2, (t w.1).isSet⟩ := by
  induction l generalizing t with
  | nil => simp at h
  | cons v l ih =>
    rw [List.map_cons, List.nodup_cons] at hn
    rw [List.foldl_cons]
    rcases List.mem_cons.1 h with rfl | h
    · rw [foldl_put_not_mem _ _ _ hn.1]
      simp [ParamTable.put]
    · rw [ih hn.2 _ h]
      have : w.1 ≠ v.1 := fun hh => hn.1 (hh ▸ List.mem_map_of_mem h)
      simp [ParamTable.put, this]

theorem foldl_put_isSet (l : List (String × Option ℝ)) (t : ParamTable) (n : String) :
    (l.foldl ParamTable.put t n).isSet = (t n).isSet := by
  induction l generalizing t with
  | nil => rfl
  | cons w l ih =>
    rw [List.foldl_cons, ih]
    unfold ParamTable.put
    split <;> rfl

/-- The results have distinct names. -/
theorem results_nodup (e : EndState) (l : List (String × Option ℝ)) (h : e.results = .ok l) :
    (l.map Prod.fst).Nodup := by
  cases e with
  | hex s =>
    simp only [EndState.results] at h
    split at h
    · cases h
    · injection h with h; subst h; simp [hexWrites]
  | condenser f s =>
    simp only [EndState.results] at h
    split at h
    · cases h
    · injection h with h; subst h; simp [hexWrites]
  | pump i o his =>
    simp only [EndState.results] at h
    split at h <;> first | (cases h; done) | (injection h with h; subst h; simp)
  | turbine i o his =>
    simp only [EndState.results] at h
    split at h <;> first | (cases h; done) | (injection h with h; subst h; simp)
  | valve i o =>
    simp only [EndState.results] at h
    split at h <;> first | (cases h; done) | (injection h with h; subst h; simp)
  | simple i o Ta =>
    cases Ta <;> simp only [EndState.results] at h <;>
    split at h <;> first | (cases h; done) | (injection h with h; subst h; simp)
  | fuelCell v =>
    simp only [EndState.results, reactorWrites] at h
    split at h
    · cases h
    · injection h with h; subst h; simp
  | electrolyzer v =>
    simp only [EndState.results, reactorWrites] at h
    split at h
    · cases h
    · injection h with h; subst h; simp

private theorem zeta_affine {i o : HStream} {v : ℝ} (hm : 1 / 10000 < i.m) (h : calcZeta i o = .ok v) (y : ℝ) :
    zetaRes i o y = .ok (y - v) := by
  have hm0 : 0 < i.m := by linarith [show (0 : ℝ) < 1 / 10000 by norm_num]
  unfold calcZeta at h
  rw [abs_of_pos hm0, if_neg (not_le.2 hm)] at h
  obtain ⟨h0, rfl⟩ := rdiv_ok h
  have e : 8 * i.m * i.m * (i.vol + o.vol) / 2 = 4 * i.m ^ 2 * (i.vol + o.vol) := by ring
  unfold zetaRes
  rw [abs_of_pos hm0, if_neg (not_lt.2 hm.le), e, rdiv_of_ne h0]

private theorem pr_affine {i o : HStream} {v : ℝ} (h : rdiv o.p i.p = .ok v) :
    i.p ≠ 0 ∧ ∀ y, prRes i o y = i.p * (y - v) := by
  obtain ⟨h0, rfl⟩ := rdiv_ok h
  refine ⟨h0, fun y => ?_⟩
  unfold prRes
  field_simp

private theorem eff_affine {dh hin hm : ℝ} {e : Option ℝ} (h : effReported dh hin (some hm) = .ok e) :
    ∃ x, e = some x ∧ hm - hin ≠ 0 ∧ ∀ y, y * (hm - hin) - dh = (hm - hin) * (y - x) := by
  simp only [effReported] at h
  split at h
  · cases h
  · next v hv =>
    obtain ⟨h0, rfl⟩ := rdiv_ok hv
    refine ⟨_, (Except.ok.inj h).symm, h0, fun y => ?_⟩
    field_simp

private theorem hex_affine (s : HexState) (r : HexResults) (h : hexCalc false s = .ok r) (n : String)
    (he : Spec.HasEquation (.hex s) n) (hr : Spec.Regular (.hex s) n) :
    ∃ x, (n, some x) ∈ hexWrites r ∧ Spec.sensitivity (.hex s) n ≠ 0 ∧
      ∀ y, (EndState.hex s).residual n y = some (.ok (Spec.sensitivity (.hex s) n * (y - x))) := by
  obtain ⟨hQ, hu, hl, hmin, hp1, hp2, hz1, hz2, hd1, hd2, -, hk, he1, he2⟩ := hexCalc_ok h
  obtain ⟨x0, res, hres⟩ := he
  obtain ⟨rz1, rz2, rk, re1, re2⟩ := hr
  have hTu : s.Tu false = s.i1.T := rfl
  have hn : n = "Q" ∨ n = "ttd_u" ∨ n = "ttd_l" ∨ n = "ttd_min" ∨ n = "pr1" ∨ n = "pr2" ∨ n = "dp1" ∨ n = "dp2"
      ∨ n = "zeta1" ∨ n = "zeta2" ∨ n = "kA" ∨ n = "eff_hot" ∨ n = "eff_cold" := by
    by_contra hn
    simp only [not_or] at hn
    obtain ⟨h1, h2, h3, h4, h5, h6, h7, h8, h9, h10, h11, h12, h13⟩ := hn
    simp only [EndState.residual, if_neg h1, if_neg h2, if_neg h3, if_neg h4, if_neg h5, if_neg h6, if_neg h7, if_neg h8,
      if_neg h9, if_neg h10, if_neg h11, if_neg h12, if_neg h13] at hres
    cases hres
  rcases hn with rfl | rfl | rfl | rfl | rfl | rfl | rfl | rfl | rfl | rfl | rfl | rfl | rfl
  · refine ⟨r.Q, by simp [hexWrites], by simp [Spec.sensitivity], fun y => ?_⟩
    simp [EndState.residual, Spec.sensitivity, hexQRes, hQ]
  · refine ⟨r.ttdU, by simp [hexWrites], by simp [Spec.sensitivity], fun y => ?_⟩
    simp [EndState.residual, Spec.sensitivity, hexTtdURes, hu]; ring
  · refine ⟨r.ttdL, by simp [hexWrites], by simp [Spec.sensitivity], fun y => ?_⟩
    simp [EndState.residual, Spec.sensitivity, hexTtdLRes, hl]; ring
  · refine ⟨r.ttdMin, by simp [hexWrites], by simp [Spec.sensitivity], fun y => ?_⟩
    simp [EndState.residual, Spec.sensitivity, hexTtdMinRes, hmin, hTu, min_comm]
  · obtain ⟨h0, ha⟩ := pr_affine hp1
    exact ⟨r.pr1, by simp [hexWrites], by simpa [Spec.sensitivity] using h0, fun y => by
      simp [EndState.residual, Spec.sensitivity, ha y]⟩
  · obtain ⟨h0, ha⟩ := pr_affine hp2
    exact ⟨r.pr2, by simp [hexWrites], by simpa [Spec.sensitivity] using h0, fun y => by
      simp [EndState.residual, Spec.sensitivity, ha y]⟩
  · refine ⟨r.dp1, by simp [hexWrites], by simp [Spec.sensitivity], fun y => ?_⟩
    simp [EndState.residual, Spec.sensitivity, dpRes, hd1]
  · refine ⟨r.dp2, by simp [hexWrites], by simp [Spec.sensitivity], fun y => ?_⟩
    simp [EndState.residual, Spec.sensitivity, dpRes, hd2]
  · exact ⟨r.zeta1, by simp [hexWrites], by simp [Spec.sensitivity], fun y => by
      simp [EndState.residual, Spec.sensitivity, zeta_affine (rz1 rfl) hz1 y]⟩
  · exact ⟨r.zeta2, by simp [hexWrites], by simp [Spec.sensitivity], fun y => by
      simp [EndState.residual, Spec.sensitivity, zeta_affine (rz2 rfl) hz2 y]⟩
  · obtain ⟨h1, h2⟩ := rk rfl
    rw [hTu, hexKAReported_pos h1 h2] at hk
    obtain ⟨td, htd, htd', hpos, -⟩ := C40_heat_exchanger s.i1.T s.i2.T s.o1.T s.o2.T
    unfold Spec.guarded at htd'
    rw [if_pos h1, if_pos h2] at htd'
    have hpos' := hpos.ne'
    rw [htd'] at hpos'
    refine ⟨-(s.i1.m * (s.o1.h - s.i1.h)) / Spec.logMean (s.i1.T - s.o2.T) (s.o1.T - s.i2.T),
      by simp [hexWrites, ← Except.ok.inj hk],
      by simpa [Spec.sensitivity] using hpos', fun y => ?_⟩
    simp [EndState.residual, Spec.sensitivity, hexKARes, htd, htd']
    generalize Spec.logMean (s.i1.T - s.o2.T) (s.o1.T - s.i2.T) = L at hpos' ⊢
    field_simp
    ring
  · obtain ⟨hm, ehm⟩ := Option.ne_none_iff_exists'.1 (re1 rfl)
    rw [ehm] at he1
    obtain ⟨x, hx, h0, ha⟩ := eff_affine he1
    exact ⟨x, by simp [hexWrites, hx], by simpa [Spec.sensitivity, ehm] using h0, fun y => by
      simp [EndState.residual, Spec.sensitivity, hexEffHotRes, ehm, ha y]⟩
  · obtain ⟨hm, ehm⟩ := Option.ne_none_iff_exists'.1 (re2 rfl)
    rw [ehm] at he2
    obtain ⟨x, hx, h0, ha⟩ := eff_affine he2
    exact ⟨x, by simp [hexWrites, hx], by simpa [Spec.sensitivity, ehm] using h0, fun y => by
      simp [EndState.residual, Spec.sensitivity, hexEffColdRes, ehm, ha y]⟩

private theorem cond_affine (f : TSet) (s : HexState) (r : HexResults) (h : hexCalc true s = .ok r) (n : String)
    (he : Spec.HasEquation (.condenser f s) n) (hr : Spec.Regular (.condenser f s) n) :
    ∃ x, (n, some x) ∈ hexWrites r ∧ Spec.sensitivity (.condenser f s) n ≠ 0 ∧
      ∀ y, (EndState.condenser f s).residual n y = some (.ok (Spec.sensitivity (.condenser f s) n * (y - x))) := by
  obtain ⟨hQ, hu, hl, hmin, hp1, hp2, hz1, hz2, hd1, hd2, -, hk, he1, he2⟩ := hexCalc_ok h
  obtain ⟨x0, res, hres⟩ := he
  obtain ⟨rz1, rz2, rk, re1, re2, rt⟩ := hr
  have hTu : s.Tu true = s.Tsat := rfl
  have hn : n = "Q" ∨ n = "ttd_u" ∨ n = "ttd_l" ∨ n = "ttd_min" ∨ n = "pr1" ∨ n = "pr2" ∨ n = "dp1" ∨ n = "dp2"
      ∨ n = "zeta1" ∨ n = "zeta2" ∨ n = "kA" ∨ n = "eff_hot" ∨ n = "eff_cold" := by
    by_contra hn
    simp only [not_or] at hn
    obtain ⟨h1, h2, h3, h4, h5, h6, h7, h8, h9, h10, h11, h12, h13⟩ := hn
    simp only [EndState.residual, if_neg h1, if_neg h2, if_neg h3, if_neg h4, if_neg h5, if_neg h6, if_neg h7, if_neg h8,
      if_neg h9, if_neg h10, if_neg h11, if_neg h12, if_neg h13] at hres
    cases hres
  rcases hn with rfl | rfl | rfl | rfl | rfl | rfl | rfl | rfl | rfl | rfl | rfl | rfl | rfl
  · refine ⟨r.Q, by simp [hexWrites], by simp [Spec.sensitivity], fun y => ?_⟩
    simp [EndState.residual, Spec.sensitivity, hexQRes, hQ]
  · refine ⟨r.ttdU, by simp [hexWrites], by simp [Spec.sensitivity], fun y => ?_⟩
    simp [EndState.residual, Spec.sensitivity, hexTtdURes, hu]; ring
  · refine ⟨r.ttdL, by simp [hexWrites], by simp [Spec.sensitivity], fun y => ?_⟩
    simp [EndState.residual, Spec.sensitivity, hexTtdLRes, hl]; ring
  · refine ⟨r.ttdMin, by simp [hexWrites], by simp [Spec.sensitivity], fun y => ?_⟩
    simp [EndState.residual, Spec.sensitivity, hexTtdMinRes, hmin, hTu, rt rfl, min_comm]
  · obtain ⟨h0, ha⟩ := pr_affine hp1
    exact ⟨r.pr1, by simp [hexWrites], by simpa [Spec.sensitivity] using h0, fun y => by
      simp [EndState.residual, Spec.sensitivity, ha y]⟩
  · obtain ⟨h0, ha⟩ := pr_affine hp2
    exact ⟨r.pr2, by simp [hexWrites], by simpa [Spec.sensitivity] using h0, fun y => by
      simp [EndState.residual, Spec.sensitivity, ha y]⟩
  · refine ⟨r.dp1, by simp [hexWrites], by simp [Spec.sensitivity], fun y => ?_⟩
    simp [EndState.residual, Spec.sensitivity, dpRes, hd1]
  · refine ⟨r.dp2, by simp [hexWrites], by simp [Spec.sensitivity], fun y => ?_⟩
    simp [EndState.residual, Spec.sensitivity, dpRes, hd2]
  · exact ⟨r.zeta1, by simp [hexWrites], by simp [Spec.sensitivity], fun y => by
      simp [EndState.residual, Spec.sensitivity, zeta_affine (rz1 rfl) hz1 y]⟩
  · exact ⟨r.zeta2, by simp [hexWrites], by simp [Spec.sensitivity], fun y => by
      simp [EndState.residual, Spec.sensitivity, zeta_affine (rz2 rfl) hz2 y]⟩
  · obtain ⟨h1, h2⟩ := rk rfl
    rw [hTu, hexKAReported_pos h1 h2] at hk
    obtain ⟨td, htd, htd', hpos, -⟩ := C40_condenser_partial f s.Tsat s.i2.T s.o1.T s.o2.T
      (.inl (by linarith)) (.inl (by linarith))
    unfold Spec.guarded at htd'
    rw [if_pos h1, if_pos h2] at htd'
    have hpos' := hpos.ne'
    rw [htd'] at hpos'
    refine ⟨-(s.i1.m * (s.o1.h - s.i1.h)) / Spec.logMean (s.Tsat - s.o2.T) (s.o1.T - s.i2.T),
      by simp [hexWrites, ← Except.ok.inj hk],
      by simpa [Spec.sensitivity] using hpos', fun y => ?_⟩
    simp [EndState.residual, Spec.sensitivity, condKARes, htd, htd']
    generalize Spec.logMean (s.Tsat - s.o2.T) (s.o1.T - s.i2.T) = L at hpos' ⊢
    field_simp
    ring
  · obtain ⟨hm, ehm⟩ := Option.ne_none_iff_exists'.1 (re1 rfl)
    rw [ehm] at he1
    obtain ⟨x, hx, h0, ha⟩ := eff_affine he1
    exact ⟨x, by simp [hexWrites, hx], by simpa [Spec.sensitivity, ehm] using h0, fun y => by
      simp [EndState.residual, Spec.sensitivity, hexEffHotRes, ehm, ha y]⟩
  · obtain ⟨hm, ehm⟩ := Option.ne_none_iff_exists'.1 (re2 rfl)
    rw [ehm] at he2
    obtain ⟨x, hx, h0, ha⟩ := eff_affine he2
    exact ⟨x, by simp [hexWrites, hx], by simpa [Spec.sensitivity, ehm] using h0, fun y => by
      simp [EndState.residual, Spec.sensitivity, hexEffColdRes, ehm, ha y]⟩

private theorem simple_kA_affine (i o : HStream) (Ta kA : ℝ) (h : 0 < (i.T - Ta) * (o.T - Ta))
    (hq : i.m * (o.h - i.h) * (i.T - Ta) ≤ 0) (hk : simpleKAReported i o Ta = .ok kA) :
    ∃ a, a = (if Ta < i.T then Spec.logMean (i.T - Ta) (o.T - Ta) else -Spec.logMean (Ta - i.T) (Ta - o.T)) ∧ a ≠ 0 ∧
      ∀ y, simpleKARes i o Ta y = .ok (a * (y - kA)) := by
  have key : ∃ td, simpleTd i.T o.T Ta = .ok td ∧ td ≠ 0 ∧ i.m * (o.h - i.h) / td ≤ 0 ∧
      td = (if Ta < i.T then Spec.logMean (i.T - Ta) (o.T - Ta) else -Spec.logMean (Ta - i.T) (Ta - o.T)) := by
    rcases pos_and_pos_or_neg_and_neg_of_mul_pos h with ⟨h1, h2⟩ | ⟨h1, h2⟩
    · have hp := Spec.logMean_pos h1 h2
      have hq' : i.m * (o.h - i.h) ≤ 0 := nonpos_of_mul_nonpos_left hq h1
      exact ⟨_, (C40_simple_value i.T o.T Ta).1 (by linarith) (by linarith), hp.ne',
        div_nonpos_of_nonpos_of_nonneg hq' hp.le, by rw [if_pos (by linarith)]⟩
    · have hp := Spec.logMean_pos (show 0 < Ta - i.T by linarith) (show 0 < Ta - o.T by linarith)
      have hq' : 0 ≤ i.m * (o.h - i.h) := by
        by_contra hc
        have := mul_pos_of_neg_of_neg (not_le.1 hc) h1
        linarith
      exact ⟨_, (C40_simple_value i.T o.T Ta).2 (by linarith) (by linarith), neg_ne_zero.2 hp.ne',
        div_nonpos_of_nonneg_of_nonpos hq' (by linarith), by rw [if_neg (by linarith)]⟩
  obtain ⟨td, htd, h0, hs, he⟩ := key
  refine ⟨td, he, h0, fun y => ?_⟩
  unfold simpleKAReported at hk
  rw [simpleTdReported_eq _ _ _ h, htd] at hk
  simp only [rdiv_of_ne h0] at hk
  have hk := Except.ok.inj hk
  rw [abs_of_nonpos hs] at hk
  subst hk
  unfold simpleKARes
  rw [htd]
  refine congrArg Except.ok ?_
  field_simp
  ring

private theorem end_affine (e : EndState) (l : List (String × Option ℝ)) (h : e.results = .ok l) (n : String)
    (he : Spec.HasEquation e n) (hr : Spec.Regular e n) :
    ∃ x, (n, some x) ∈ l ∧ Spec.sensitivity e n ≠ 0 ∧
      ∀ y, e.residual n y = some (.ok (Spec.sensitivity e n * (y - x))) := by
  cases e with
  | hex s =>
    simp only [EndState.results] at h
    split at h
    · cases h
    · next r hc => injection h with h; subst h; exact hex_affine s r hc n he hr
  | condenser f s =>
    simp only [EndState.results] at h
    split at h
    · cases h
    · next r hc => injection h with h; subst h; exact cond_affine f s r hc n he hr
  | pump i o his =>
    simp only [EndState.results] at h
    split at h
    · cases h
    · cases h
    · next pr eta hp ht =>
      injection h with h; subst h
      obtain ⟨x0, res, hres⟩ := he
      have hn : n = "P" ∨ n = "pr" ∨ n = "eta_s" := by
        by_contra hn
        simp only [not_or] at hn
        obtain ⟨h1, h2, h3⟩ := hn
        simp only [EndState.residual, if_neg h1, if_neg h2, if_neg h3] at hres
        cases hres
      rcases hn with rfl | rfl | rfl
      · exact ⟨turboPReported i o, by simp, by simp [Spec.sensitivity], fun y => by
          simp [EndState.residual, Spec.sensitivity, turboPRes, turboPReported]⟩
      · obtain ⟨h0, ha⟩ := pr_affine hp
        exact ⟨pr, by simp, by simpa [Spec.sensitivity] using h0, fun y => by
          simp [EndState.residual, Spec.sensitivity, ha y]⟩
      · obtain ⟨h0, rfl⟩ := rdiv_ok ht
        refine ⟨_, by simp; rfl, by simpa [Spec.sensitivity] using h0, fun y => ?_⟩
        simp [EndState.residual, Spec.sensitivity, pumpEtaRes]
        field_simp
  | turbine i o his =>
    simp only [EndState.results] at h
    split at h
    · cases h
    · cases h
    · next pr eta hp ht =>
      injection h with h; subst h
      obtain ⟨x0, res, hres⟩ := he
      have hn : n = "P" ∨ n = "pr" ∨ n = "eta_s" := by
        by_contra hn
        simp only [not_or] at hn
        obtain ⟨h1, h2, h3⟩ := hn
        simp only [EndState.residual, if_neg h1, if_neg h2, if_neg h3] at hres
        cases hres
      rcases hn with rfl | rfl | rfl
      · exact ⟨turboPReported i o, by simp, by simp [Spec.sensitivity], fun y => by
          simp [EndState.residual, Spec.sensitivity, turboPRes, turboPReported]⟩
      · obtain ⟨h0, ha⟩ := pr_affine hp
        exact ⟨pr, by simp, by simpa [Spec.sensitivity] using h0, fun y => by
          simp [EndState.residual, Spec.sensitivity, ha y]⟩
      · obtain ⟨h0, rfl⟩ := rdiv_ok ht
        refine ⟨_, by simp; rfl, by simpa [Spec.sensitivity] using h0, fun y => ?_⟩
        simp [EndState.residual, Spec.sensitivity, turbineEtaRes]
        field_simp
        ring
  | valve i o =>
    simp only [EndState.results] at h
    split at h
    · cases h
    · cases h
    · next pr z hp hz =>
      injection h with h; subst h
      obtain ⟨x0, res, hres⟩ := he
      have hn : n = "pr" ∨ n = "zeta" := by
        by_contra hn
        simp only [not_or] at hn
        obtain ⟨h1, h2⟩ := hn
        simp only [EndState.residual, if_neg h1, if_neg h2] at hres
        cases hres
      rcases hn with rfl | rfl
      · obtain ⟨h0, ha⟩ := pr_affine hp
        exact ⟨pr, by simp, by simpa [Spec.sensitivity] using h0, fun y => by
          simp [EndState.residual, Spec.sensitivity, ha y]⟩
      · exact ⟨z, by simp, by simp [Spec.sensitivity], fun y => by
          simp [EndState.residual, Spec.sensitivity, zeta_affine (hr rfl) hz y]⟩
  | simple i o Tamb =>
    have hn : n = "Q" ∨ n = "pr" ∨ n = "zeta" ∨ (n = "kA" ∧ Tamb ≠ none) := by
      obtain ⟨x0, res, hres⟩ := he
      by_contra hn
      simp only [not_or] at hn
      obtain ⟨h1, h2, h3, h4⟩ := hn
      simp only [EndState.residual, if_neg h1, if_neg h2, if_neg h3] at hres
      split at hres
      · next h5 =>
        cases Tamb with
        | none => cases hres
        | some Ta => exact h4 ⟨h5, by simp⟩
      · cases hres
    have hl : ∃ pr z, prReported i o = .ok pr ∧ calcZeta i o = .ok z ∧ ("Q", some (i.m * (o.h - i.h))) ∈ l ∧
        ("pr", some pr) ∈ l ∧ ("zeta", some z) ∈ l ∧
        (∀ Ta, Tamb = some Ta → ∃ kA, simpleKAReported i o Ta = .ok kA ∧ ("kA", some kA) ∈ l) := by
      cases Tamb with
      | none =>
        simp only [EndState.results] at h
        split at h
        · cases h
        · cases h
        · next pr z hp hz => injection h with h; subst h; exact ⟨pr, z, hp, hz, by simp, by simp, by simp, by simp⟩
      | some Ta =>
        simp only [EndState.results] at h
        split at h
        · cases h
        · cases h
        · cases h
        · next pr z kA hp hz hk =>
          injection h with h; subst h
          exact ⟨pr, z, hp, hz, by simp, by simp, by simp, fun Ta' e => by
            injection e with e; subst e; exact ⟨kA, hk, by simp⟩⟩
    obtain ⟨pr, z, hp, hz, m1, m2, m3, m4⟩ := hl
    rcases hn with rfl | rfl | rfl | ⟨rfl, hT⟩
    · exact ⟨_, m1, by simp [Spec.sensitivity], fun y => by simp [EndState.residual, Spec.sensitivity]⟩
    · obtain ⟨h0, ha⟩ := pr_affine hp
      exact ⟨pr, m2, by simpa [Spec.sensitivity] using h0, fun y => by
        simp [EndState.residual, Spec.sensitivity, ha y]⟩
    · exact ⟨z, m3, by simp [Spec.sensitivity], fun y => by
        simp [EndState.residual, Spec.sensitivity, zeta_affine (hr.1 rfl) hz y]⟩
    · obtain ⟨Ta, rfl⟩ := Option.ne_none_iff_exists'.1 hT
      obtain ⟨kA, hk, hm⟩ := m4 Ta rfl
      obtain ⟨h1, h2⟩ := hr.2 rfl Ta rfl
      obtain ⟨a, ha, h0, hy⟩ := simple_kA_affine i o Ta kA h1 h2 hk
      have hs : Spec.sensitivity (.simple i o (some Ta)) "kA" = a := by simp [Spec.sensitivity, ha]
      rw [hs]
      exact ⟨kA, hm, h0, fun y => by simp [EndState.residual, hy y]⟩
  | fuelCell v =>
    simp only [EndState.results, reactorWrites] at h
    split at h
    · cases h
    · next hz =>
      injection h with h; subst h
      simp only [not_or] at hz
      obtain ⟨z1, z2, z3⟩ := hz
      have hM : 0 < v.MH2 := hr
      have hM' := hM.ne'
      obtain ⟨x0, res, hres⟩ := he
      have hn : n = "Q" ∨ n = "pr" ∨ n = "e" ∨ n = "eta" := by
        by_contra hn
        simp only [not_or] at hn
        obtain ⟨h1, h2, h3, h4⟩ := hn
        simp only [EndState.residual, if_neg h1, if_neg h2, if_neg h3, if_neg h4] at hres
        cases hres
      rcases hn with rfl | rfl | rfl | rfl
      · refine ⟨_, by simp; rfl, by simp [Spec.sensitivity], fun y => ?_⟩
        simp [EndState.residual, Spec.sensitivity, cellHeatRes, cellReport]
      · refine ⟨_, by simp; rfl, by simpa [Spec.sensitivity] using z1, fun y => ?_⟩
        simp [EndState.residual, Spec.sensitivity, cellReport]
        field_simp
      · refine ⟨_, by simp; rfl, by simpa [Spec.sensitivity] using z2, fun y => ?_⟩
        simp [EndState.residual, Spec.sensitivity, cellSpecRes, cellReport]
        field_simp
        ring
      · refine ⟨_, by simp; rfl, by simp [Spec.sensitivity, z2, hM'], fun y => ?_⟩
        simp [EndState.residual, Spec.sensitivity, cellEtaRes, cellReport, cellE0_eq _ hM]
        field_simp
        ring
  | electrolyzer v =>
    simp only [EndState.results, reactorWrites] at h
    split at h
    · cases h
    · next hz =>
      injection h with h; subst h
      simp only [not_or] at hz
      obtain ⟨z1, z2, z3⟩ := hz
      have hM : 0 < v.MH2 := hr
      have hM' := hM.ne'
      obtain ⟨x0, res, hres⟩ := he
      have hn : n = "Q" ∨ n = "pr" ∨ n = "e" ∨ n = "eta" := by
        by_contra hn
        simp only [not_or] at hn
        obtain ⟨h1, h2, h3, h4⟩ := hn
        simp only [EndState.residual, if_neg h1, if_neg h2, if_neg h3, if_neg h4] at hres
        cases hres
      rcases hn with rfl | rfl | rfl | rfl
      · refine ⟨_, by simp; rfl, by simp [Spec.sensitivity], fun y => ?_⟩
        simp [EndState.residual, Spec.sensitivity, elecHeatRes, elecReport]
        ring
      · refine ⟨_, by simp; rfl, by simpa [Spec.sensitivity] using z1, fun y => ?_⟩
        simp [EndState.residual, Spec.sensitivity, elecReport]
        field_simp
      · refine ⟨_, by simp; rfl, by simpa [Spec.sensitivity] using z2, fun y => ?_⟩
        simp [EndState.residual, Spec.sensitivity, elecSpecRes, elecReport]
        field_simp
        ring
      · refine ⟨_, by simp; rfl, by simpa [Spec.sensitivity] using z3, fun y => ?_⟩
        simp [EndState.residual, Spec.sensitivity, elecEtaRes, elecReport, elecE0_eq _ hM]
        field_simp

private theorem store_ok {t t' : ParamTable} {e : EndState} (h : t.store e = (t', none)) :
    ∃ l, e.results = .ok l ∧ t' = l.foldl ParamTable.put t := by
  unfold ParamTable.store at h
  split at h
  · simp at h
  · next l hl => simp only [Prod.mk.injEq, and_true] at h; exact ⟨l, hl, h.symm⟩

private theorem store_of {t : ParamTable} {e : EndState} {l : List (String × Option ℝ)} (h : e.results = .ok l) :
    t.store e = (l.foldl ParamTable.put t, none) := by
  rw [ParamTable.store, h]

/-- C92 (exact condition, partial: for states without the singularities listed in `Spec.Regular`): after a calculation
which ended in the state `e`, converged or not, the parameter has the value `x` specified before if and only if the state
satisfies the equation of the specification exactly. -/
theorem C92_kept_partial (e : EndState) (t t' : ParamTable) (h : t.store e = (t', none)) (n : String) (x : ℝ)
    (res : PyRes ℝ) (hn : e.residual n x = some res) (hr : Spec.Regular e n) :
    (t' n).val = some x ↔ res = .ok 0 := by
  obtain ⟨l, hl, rfl⟩ := store_ok h
  obtain ⟨x', hm, h0, hy⟩ := end_affine e l hl n ⟨x, res, hn⟩ hr
  have hv : (l.foldl ParamTable.put t n).val = some x' := by rw [foldl_put_mem l (results_nodup e l hl) t _ hm]
  rw [hv, Option.some.injEq]
  rw [hy x] at hn
  have hn := Option.some.inj hn
  rw [← hn, Except.ok.injEq, mul_eq_zero, or_iff_right h0, sub_eq_zero, eq_comm]

/-- C92 (size of the change, partial as above): the new value differs from the specified one by the residual of the
equation at the end of the calculation, divided by the sensitivity of the equation. -/
theorem C92_drift_partial (e : EndState) (t t' : ParamTable) (h : t.store e = (t', none)) (n : String)
    (he : Spec.HasEquation e n) (hr : Spec.Regular e n) :
    ∃ x', (t' n).val = some x' ∧ Spec.sensitivity e n ≠ 0 ∧
      ∀ x r, e.residual n x = some (.ok r) → x' - x = -r / Spec.sensitivity e n := by
  obtain ⟨l, hl, rfl⟩ := store_ok h
  obtain ⟨x', hm, h0, hy⟩ := end_affine e l hl n he hr
  refine ⟨x', by rw [foldl_put_mem l (results_nodup e l hl) t _ hm], h0, fun x r hx => ?_⟩
  rw [hy x] at hx
  have := Except.ok.inj (Option.some.inj hx)
  rw [eq_div_iff h0, ← this]
  ring

/-- C92 (consequence, partial as above): the stored values satisfy their equations in the state in which the calculation
stopped. A calculation which did not converge looks converged, with respect to the specifications of the component, once
its results are stored. -/
theorem C92_selfconsistent_partial (e : EndState) (t t' : ParamTable) (h : t.store e = (t', none)) (n : String)
    (he : Spec.HasEquation e n) (hr : Spec.Regular e n) :
    ∃ x', (t' n).val = some x' ∧ e.residual n x' = some (.ok 0) := by
  obtain ⟨l, hl, rfl⟩ := store_ok h
  obtain ⟨x', hm, h0, hy⟩ := end_affine e l hl n he hr
  refine ⟨x', by rw [foldl_put_mem l (results_nodup e l hl) t _ hm], ?_⟩
  rw [hy x']
  simp

/-- Parameters for which a result is stored. -/
private theorem results_of_equation (e : EndState) (l : List (String × Option ℝ)) (h : e.results = .ok l) (n : String)
    (he : Spec.HasEquation e n) : ∃ o, (n, o) ∈ l := by
  obtain ⟨x0, res, hres⟩ := he
  have hx : ∀ r : HexResults, ∀ n, (n = "Q" ∨ n = "ttd_u" ∨ n = "ttd_l" ∨ n = "ttd_min" ∨ n = "pr1" ∨ n = "pr2"
      ∨ n = "dp1" ∨ n = "dp2" ∨ n = "zeta1" ∨ n = "zeta2" ∨ n = "kA" ∨ n = "eff_hot" ∨ n = "eff_cold") →
      ∃ o, (n, o) ∈ hexWrites r := by
    intro r n hn
    rcases hn with rfl | rfl | rfl | rfl | rfl | rfl | rfl | rfl | rfl | rfl | rfl | rfl | rfl <;> simp [hexWrites]
  have hh : ∀ (c : Option (PyRes ℝ)) (P : Prop), c = some res → (¬ P → c = none) → P := by
    intro c P h1 h2
    by_contra h3
    rw [h2 h3] at h1
    cases h1
  cases e with
  | hex s =>
    simp only [EndState.results] at h
    split at h
    · cases h
    · next r hc =>
      injection h with h; subst h
      refine hx r n (hh _ _ hres fun hn => ?_)
      simp only [not_or] at hn
      obtain ⟨h1, h2, h3, h4, h5, h6, h7, h8, h9, h10, h11, h12, h13⟩ := hn
      simp only [EndState.residual, if_neg h1, if_neg h2, if_neg h3, if_neg h4, if_neg h5, if_neg h6, if_neg h7, if_neg h8,
        if_neg h9, if_neg h10, if_neg h11, if_neg h12, if_neg h13]
  | condenser f s =>
    simp only [EndState.results] at h
    split at h
    · cases h
    · next r hc =>
      injection h with h; subst h
      refine hx r n (hh _ _ hres fun hn => ?_)
      simp only [not_or] at hn
      obtain ⟨h1, h2, h3, h4, h5, h6, h7, h8, h9, h10, h11, h12, h13⟩ := hn
      simp only [EndState.residual, if_neg h1, if_neg h2, if_neg h3, if_neg h4, if_neg h5, if_neg h6, if_neg h7, if_neg h8,
        if_neg h9, if_neg h10, if_neg h11, if_neg h12, if_neg h13]
  | valve i o =>
    simp only [EndState.results] at h
    split at h
    · cases h
    · cases h
    · injection h with h; subst h
      have hn : n = "pr" ∨ n = "zeta" := by
        refine hh _ _ hres fun hn => ?_
        simp only [not_or] at hn
        obtain ⟨h1, h2⟩ := hn
        simp only [EndState.residual, if_neg h1, if_neg h2]
      rcases hn with rfl | rfl <;> simp
  | pump i o his =>
    simp only [EndState.results] at h
    split at h
    · cases h
    · cases h
    · injection h with h; subst h
      have hn : n = "P" ∨ n = "pr" ∨ n = "eta_s" := by
        refine hh _ _ hres fun hn => ?_
        simp only [not_or] at hn
        obtain ⟨h1, h2, h3⟩ := hn
        simp only [EndState.residual, if_neg h1, if_neg h2, if_neg h3]
      rcases hn with rfl | rfl | rfl <;> simp
  | turbine i o his =>
    simp only [EndState.results] at h
    split at h
    · cases h
    · cases h
    · injection h with h; subst h
      have hn : n = "P" ∨ n = "pr" ∨ n = "eta_s" := by
        refine hh _ _ hres fun hn => ?_
        simp only [not_or] at hn
        obtain ⟨h1, h2, h3⟩ := hn
        simp only [EndState.residual, if_neg h1, if_neg h2, if_neg h3]
      rcases hn with rfl | rfl | rfl <;> simp
  | simple i o Tamb =>
    cases Tamb with
    | none =>
      simp only [EndState.results] at h
      split at h
      · cases h
      · cases h
      · injection h with h; subst h
        have hn : n = "Q" ∨ n = "pr" ∨ n = "zeta" := by
          refine hh _ _ hres fun hn => ?_
          simp only [not_or] at hn
          obtain ⟨h1, h2, h3⟩ := hn
          simp only [EndState.residual, if_neg h1, if_neg h2, if_neg h3, ite_self]
        rcases hn with rfl | rfl | rfl <;> simp
    | some Ta =>
      simp only [EndState.results] at h
      split at h
      · cases h
      · cases h
      · cases h
      · injection h with h; subst h
        have hn : n = "Q" ∨ n = "pr" ∨ n = "zeta" ∨ n = "kA" := by
          refine hh _ _ hres fun hn => ?_
          simp only [not_or] at hn
          obtain ⟨h1, h2, h3, h4⟩ := hn
          simp only [EndState.residual, if_neg h1, if_neg h2, if_neg h3, if_neg h4]
        rcases hn with rfl | rfl | rfl | rfl <;> simp
  | fuelCell v =>
    simp only [EndState.results, reactorWrites] at h
    split at h
    · cases h
    · injection h with h; subst h
      have hn : n = "Q" ∨ n = "pr" ∨ n = "e" ∨ n = "eta" := by
        refine hh _ _ hres fun hn => ?_
        simp only [not_or] at hn
        obtain ⟨h1, h2, h3, h4⟩ := hn
        simp only [EndState.residual, if_neg h1, if_neg h2, if_neg h3, if_neg h4]
      rcases hn with rfl | rfl | rfl | rfl <;> simp
  | electrolyzer v =>
    simp only [EndState.results, reactorWrites] at h
    split at h
    · cases h
    · injection h with h; subst h
      have hn : n = "Q" ∨ n = "pr" ∨ n = "e" ∨ n = "eta" := by
        refine hh _ _ hres fun hn => ?_
        simp only [not_or] at hn
        obtain ⟨h1, h2, h3, h4⟩ := hn
        simp only [EndState.residual, if_neg h1, if_neg h2, if_neg h3, if_neg h4]
      rcases hn with rfl | rfl | rfl | rfl <;> simp

private theorem equation_of_results (e : EndState) (l : List (String × Option ℝ)) (h : e.results = .ok l) (n : String)
    (o : Option ℝ) (hm : (n, o) ∈ l) : Spec.HasEquation e n := by
  have hx : ∀ r : HexResults, (n, o) ∈ hexWrites r → n = "Q" ∨ n = "ttd_u" ∨ n = "ttd_l" ∨ n = "ttd_min" ∨ n = "pr1"
      ∨ n = "zeta1" ∨ n = "dp1" ∨ n = "pr2" ∨ n = "zeta2" ∨ n = "dp2" ∨ n = "kA" ∨ n = "eff_hot" ∨ n = "eff_cold" := by
    intro r hm
    simp only [hexWrites, List.mem_cons, Prod.mk.injEq, List.not_mem_nil, or_false] at hm
    tauto
  unfold Spec.HasEquation
  refine ⟨0, ?_⟩
  cases e with
  | hex s =>
    simp only [EndState.results] at h
    split at h
    · cases h
    · injection h with h; subst h
      rcases hx _ hm with rfl | rfl | rfl | rfl | rfl | rfl | rfl | rfl | rfl | rfl | rfl | rfl | rfl <;>
        simp [EndState.residual]
  | condenser f s =>
    simp only [EndState.results] at h
    split at h
    · cases h
    · injection h with h; subst h
      rcases hx _ hm with rfl | rfl | rfl | rfl | rfl | rfl | rfl | rfl | rfl | rfl | rfl | rfl | rfl <;>
        simp [EndState.residual]
  | valve i o' =>
    simp only [EndState.results] at h
    split at h
    · cases h
    · cases h
    · injection h with h; subst h
      simp only [List.mem_cons, Prod.mk.injEq, List.not_mem_nil, or_false] at hm
      rcases hm with ⟨rfl, -⟩ | ⟨rfl, -⟩ <;> simp [EndState.residual]
  | pump i o' his =>
    simp only [EndState.results] at h
    split at h
    · cases h
    · cases h
    · injection h with h; subst h
      simp only [List.mem_cons, Prod.mk.injEq, List.not_mem_nil, or_false] at hm
      rcases hm with ⟨rfl, -⟩ | ⟨rfl, -⟩ | ⟨rfl, -⟩ <;> simp [EndState.residual]
  | turbine i o' his =>
    simp only [EndState.results] at h
    split at h
    · cases h
    · cases h
    · injection h with h; subst h
      simp only [List.mem_cons, Prod.mk.injEq, List.not_mem_nil, or_false] at hm
      rcases hm with ⟨rfl, -⟩ | ⟨rfl, -⟩ | ⟨rfl, -⟩ <;> simp [EndState.residual]
  | simple i o' Tamb =>
    cases Tamb with
    | none =>
      simp only [EndState.results] at h
      split at h
      · cases h
      · cases h
      · injection h with h; subst h
        simp only [List.mem_cons, Prod.mk.injEq, List.not_mem_nil, or_false] at hm
        rcases hm with ⟨rfl, -⟩ | ⟨rfl, -⟩ | ⟨rfl, -⟩ <;> simp [EndState.residual]
    | some Ta =>
      simp only [EndState.results] at h
      split at h
      · cases h
      · cases h
      · cases h
      · injection h with h; subst h
        simp only [List.mem_cons, Prod.mk.injEq, List.not_mem_nil, or_false] at hm
        rcases hm with ⟨rfl, -⟩ | ⟨rfl, -⟩ | ⟨rfl, -⟩ | ⟨rfl, -⟩ <;> simp [EndState.residual]
  | fuelCell v =>
    simp only [EndState.results, reactorWrites] at h
    split at h
    · cases h
    · injection h with h; subst h
      simp only [List.mem_cons, Prod.mk.injEq, List.not_mem_nil, or_false] at hm
      rcases hm with ⟨rfl, -⟩ | ⟨rfl, -⟩ | ⟨rfl, -⟩ | ⟨rfl, -⟩ <;> simp [EndState.residual]
  | electrolyzer v =>
    simp only [EndState.results, reactorWrites] at h
    split at h
    · cases h
    · injection h with h; subst h
      simp only [List.mem_cons, Prod.mk.injEq, List.not_mem_nil, or_false] at hm
      rcases hm with ⟨rfl, -⟩ | ⟨rfl, -⟩ | ⟨rfl, -⟩ | ⟨rfl, -⟩ <;> simp [EndState.residual]

/-- C92 (what is never changed): in any sequence of calculations, with or without exception, the flags telling which
parameters are specified stay as they are, and so do the values of all parameters without an equation of this table
(for instance the power of electrolyzers and fuel cells, pipe dimensions, ambient temperature). -/
theorem C92_others (l : List SolveEnd) (t t' : ParamTable) (er : Option PyErr) (h : t.solves l = (t', er)) (n : String) :
    (t' n).isSet = (t n).isSet ∧
    ((∀ e, .postprocessed e ∈ l → ¬ Spec.HasEquation e n) → t' n = t n) := by
  induction l generalizing t with
  | nil =>
    simp only [ParamTable.solves, Prod.mk.injEq] at h
    obtain ⟨rfl, -⟩ := h
    exact ⟨rfl, fun _ => rfl⟩
  | cons r l ih =>
    have key : ((t.solve r).1 n).isSet = (t n).isSet ∧
        ((∀ e, r = .postprocessed e → ¬ Spec.HasEquation e n) → (t.solve r).1 n = t n) := by
      cases r with
      | linDep => exact ⟨rfl, fun _ => rfl⟩
      | noProgress => exact ⟨rfl, fun _ => rfl⟩
      | postprocessed e =>
        simp only [ParamTable.solve, ParamTable.store]
        split
        · exact ⟨rfl, fun _ => rfl⟩
        · next w hw =>
          refine ⟨foldl_put_isSet w t n, fun hne => foldl_put_not_mem w t n fun hm => ?_⟩
          obtain ⟨⟨n', o⟩, h1, h2⟩ := List.mem_map.1 hm
          simp only at h2
          subst h2
          exact hne e rfl (equation_of_results e w hw _ o h1)
    simp only [ParamTable.solves] at h
    split at h
    · next t1 er1 hs =>
      simp only [Prod.mk.injEq] at h
      obtain ⟨rfl, -⟩ := h
      rw [hs] at key
      exact ⟨key.1, fun hn => key.2 fun e he => hn e (by simp [he])⟩
    · next t1 hs =>
      rw [hs] at key
      obtain ⟨i1, i2⟩ := ih t1 h
      exact ⟨i1.trans key.1, fun hn => (i2 fun e he => hn e (by simp [he])).trans
        (key.2 fun e he => hn e (by simp [he]))⟩

private theorem solves_append (l l' : List SolveEnd) (t : ParamTable) :
    t.solves (l ++ l') = match t.solves l with
      | (t', some er) => (t', some er)
      | (t', none) => t'.solves l' := by
  induction l generalizing t with
  | nil => rfl
  | cons r l ih =>
    simp only [List.cons_append, ParamTable.solves]
    split
    · rfl
    · exact ih _

/-- C92 (history): the values after a sequence of calculations are those of the last calculation with results, whatever
was specified at the beginning and whatever happened before; a calculation which ends in the same state again changes
nothing, and calculations without results change nothing. -/
theorem C92_history (l : List SolveEnd) (e : EndState) (t1 t2 t1' t2' : ParamTable)
    (h1 : t1.solves (l ++ [.postprocessed e]) = (t1', none)) (h2 : t2.store e = (t2', none)) :
    (∀ n, Spec.HasEquation e n → (t1' n).val = (t2' n).val)
    ∧ t1'.store e = (t1', none)
    ∧ t1'.solve .linDep = (t1', none) ∧ t1'.solve .noProgress = (t1', none) := by
  rw [solves_append] at h1
  split at h1
  · simp at h1
  · next t hs =>
    have h1 : t.store e = (t1', none) := by
      simp only [ParamTable.solves, ParamTable.solve] at h1
      split at h1
      · simp at h1
      · next h => rw [h, h1]
    obtain ⟨w, hw, rfl⟩ := store_ok h1
    obtain ⟨w', hw', rfl⟩ := store_ok h2
    rw [hw] at hw'
    obtain rfl := Except.ok.inj hw'
    refine ⟨fun n hn => ?_, ?_, rfl, rfl⟩
    · obtain ⟨o, ho⟩ := results_of_equation e w hw n hn
      rw [foldl_put_mem w (results_nodup e w hw) t _ ho, foldl_put_mem w (results_nodup e w hw) t2 _ ho]
    · unfold ParamTable.store
      rw [hw]
      simp only [Prod.mk.injEq, and_true]
      funext n
      by_cases hm : n ∈ w.map Prod.fst
      · obtain ⟨⟨n', o⟩, hm1, hm2⟩ := List.mem_map.1 hm
        simp only at hm2
        subst hm2
        rw [foldl_put_mem w (results_nodup e w hw) _ _ hm1, foldl_put_mem w (results_nodup e w hw) t _ hm1]
      · rw [foldl_put_not_mem w _ n hm]

/-- A pump with a specified efficiency of 0.8 (a calculation has stopped without convergence at the state: 100 kJ/kg at the
inlet, 104 kJ/kg at the outlet, 102 kJ/kg after isentropic compression). -/
noncomputable def driftPump : EndState := .pump ⟨2, 100000, 100000, 300, 1 / 1000⟩ ⟨2, 500000, 104000, 301, 1 / 1000⟩ 102000

/-- Parameters of a component: one parameter is specified. -/
noncomputable def oneSpec (name : String) (x : ℝ) : ParamTable := fun n => if n = name then ⟨some x, true⟩ else ⟨none, false⟩

private theorem driftPump_results : driftPump.results = .ok [("P", some 8000), ("pr", some 5), ("eta_s", some (1 / 2))] := by
  norm_num [driftPump, EndState.results, prReported, pumpEtaReported, turboPReported, rdiv]

private theorem driftPump_residual (x : ℝ) : driftPump.residual "eta_s" x = some (.ok (4000 * x - 2000)) := by
  simp [driftPump, EndState.residual, pumpEtaRes]
  norm_num

/-- Non-trivial case for the theorems above: the hypotheses hold for the pump; the specified efficiency 0.8 has become 0.5,
the change is the residual 1200 divided by the sensitivity 4000. -/
example : ∃ t', (oneSpec "eta_s" 0.8).store driftPump = (t', none) ∧ Spec.Regular driftPump "eta_s"
    ∧ driftPump.residual "eta_s" 0.8 = some (.ok 1200) ∧ Spec.sensitivity driftPump "eta_s" = 4000
    ∧ (t' "eta_s").val = some (1 / 2) := by
  refine ⟨_, store_of driftPump_results, trivial, ?_, ?_, ?_⟩
  · rw [driftPump_residual]; norm_num
  · simp [driftPump, Spec.sensitivity]; norm_num
  · simp [ParamTable.put]

/-- Non-trivial case: a heat exchanger, all parameters regular, results exist. -/
example : (∃ t', (oneSpec "kA" 1).store (.hex exHex) = (t', none)) ∧ (∀ n, Spec.Regular (.hex exHex) n)
    ∧ Spec.HasEquation (.hex exHex) "kA" := by
  obtain ⟨r, hr⟩ : ∃ r, hexCalc false exHex = .ok r := by
    refine C39_results_exist false exHex ?_ ?_ ?_ ?_ ?_ ?_ ?_ ?_ ?_ ?_ <;> norm_num [exHex, HexState.Tu]
  refine ⟨⟨_, store_of (l := hexWrites r) (by simp only [EndState.results, hr])⟩, fun n => ?_, 0, ?_⟩
  · refine ⟨?_, ?_, ?_, ?_, ?_⟩ <;> intro _ <;> simp [exHex] <;> norm_num
  · simp [EndState.residual]

/-- C92 is false: a calculation which stops without convergence replaces the specified efficiency (0.8) by the one of the
state it stopped in (0.5). The parameter still counts as specified, the equation of the user's specification is violated,
and a new calculation, to which the state satisfies the stored specification, has no way to return to the user's value. -/
theorem C92_lost_false : ∃ (e : EndState) (t t' : ParamTable),
    t.solve (.postprocessed e) = (t', none) ∧ (t "eta_s").val = some 0.8 ∧ (t "eta_s").isSet = true
    ∧ (t' "eta_s").val = some 0.5 ∧ (t' "eta_s").isSet = true
    ∧ e.residual "eta_s" 0.8 ≠ some (.ok 0) ∧ e.residual "eta_s" 0.5 = some (.ok 0)
    ∧ ∀ l, (∀ r ∈ l, r = .linDep ∨ r = .noProgress ∨ r = .postprocessed e) →
        ((t'.solves l).1 "eta_s").val = some 0.5 := by
  have hs : (oneSpec "eta_s" 0.8).store driftPump
      = ([("P", some 8000), ("pr", some 5), ("eta_s", some (1 / 2))].foldl ParamTable.put (oneSpec "eta_s" 0.8), none) := by
    rw [ParamTable.store, driftPump_results]
  refine ⟨driftPump, oneSpec "eta_s" 0.8, _, hs, by simp [oneSpec], by simp [oneSpec], ?_, ?_, ?_, ?_, ?_⟩
  · simp [ParamTable.put]; norm_num
  · simp [ParamTable.put, oneSpec]
  · rw [driftPump_residual]; norm_num
  · rw [driftPump_residual]; norm_num
  · intro l hl
    have hfix : ∀ t : ParamTable, (t "eta_s").val = some 0.5 →
        (∀ r, r = .linDep ∨ r = .noProgress ∨ r = .postprocessed driftPump →
          ∃ t', t.solve r = (t', none) ∧ (t' "eta_s").val = some 0.5) := by
      rintro t ht r (rfl | rfl | rfl)
      · exact ⟨t, rfl, ht⟩
      · exact ⟨t, rfl, ht⟩
      · refine ⟨_, store_of driftPump_results, ?_⟩
        simp [ParamTable.put]; norm_num
    have hall : ∀ t : ParamTable, (t "eta_s").val = some 0.5 → ((t.solves l).1 "eta_s").val = some 0.5 := by
      induction l with
      | nil => intro t ht; exact ht
      | cons r l ih =>
        intro t ht
        obtain ⟨t', h1, h2⟩ := hfix t ht r (hl r (by simp))
        simp only [ParamTable.solves, h1]
        exact ih (fun r hr => hl r (by simp [hr])) t' h2
    refine hall _ ?_
    simp [ParamTable.put]; norm_num

/-- C92 is false for converged calculations as well: for a condenser with superheated inlet the specified minimum terminal
temperature difference of 50 K, which the state satisfies exactly, becomes 20 K; the state violates the new
specification, so repeating the calculation leads to another result. -/
theorem C92_converged_false : ∃ (e : EndState) (t t' : ParamTable),
    t.solve (.postprocessed e) = (t', none) ∧ (t "ttd_min").val = some 50 ∧ (t "ttd_min").isSet = true
    ∧ e.residual "ttd_min" 50 = some (.ok 0) ∧ (t' "ttd_min").val = some 20
    ∧ (t' "ttd_min").isSet = true ∧ e.residual "ttd_min" 20 ≠ some (.ok 0) := by
  obtain ⟨s, r, hr, h50, h20⟩ := C39_ttd_min_condenser_false
  refine ⟨.condenser ⟨false, false, false, false⟩ s, oneSpec "ttd_min" 50, _,
    store_of (l := hexWrites r) (by simp only [EndState.results, hr]), by simp [oneSpec], by simp [oneSpec], ?_, ?_, ?_, ?_⟩
  · simp [EndState.residual, h50]
  · simp [hexWrites, ParamTable.put, h20]
  · simp [hexWrites, ParamTable.put, oneSpec]
  · simp only [EndState.residual]
    simp
    unfold hexTtdMinRes at h50 ⊢
    intro h
    linarith

/-- C92 is false for heat transfer coefficients: if the calculation stops with a negative upper terminal temperature
difference, any specified kA of a heat exchanger becomes nan and remains specified, although some value of kA satisfies the
equation in that state. -/
theorem C92_nan_false (s : HexState) (t t' : ParamTable) (hu : s.i1.T - s.o2.T < 0)
    (h : t.store (.hex s) = (t', none)) :
    (t' "kA").val = none ∧ (t' "kA").isSet = (t "kA").isSet ∧ ∃ x, (EndState.hex s).residual "kA" x = some (.ok 0) := by
  obtain ⟨l, hl, rfl⟩ := store_ok h
  obtain ⟨⟨v, hv⟩, hnone⟩ := C39_kA_false s hu
  refine ⟨?_, foldl_put_isSet l t "kA", v, by simp [EndState.residual, hv]⟩
  have hnd := results_nodup _ l hl
  simp only [EndState.results] at hl
  split at hl
  · cases hl
  · next r hr =>
    injection hl with hl
    have hm : ("kA", (none : Option ℝ)) ∈ l := by rw [← hl]; simp [hexWrites, hnone r hr]
    rw [foldl_put_mem l hnd t _ hm]

/-- Non-trivial case: a heat exchanger which has stopped with 450 K at the cold outlet and 440 K at the hot inlet. -/
example : ∃ s t', s.i1.T - s.o2.T < 0 ∧ (oneSpec "kA" 1000).store (.hex s) = (t', none) := by
  refine ⟨{ exHex with i1 := ⟨10, 200000, 800000, 440, 1 / 1000⟩ }, ?_⟩
  have hm : ¬ |(10 : ℝ)| ≤ 1 / 10000 := by norm_num
  have hm' : ¬ |(5 : ℝ)| ≤ 1 / 10000 := by norm_num
  obtain ⟨r, hr⟩ : ∃ r, hexCalc false { exHex with i1 := ⟨10, 200000, 800000, 440, 1 / 1000⟩ } = .ok r := by
    simp only [hexCalc, exHex, calcZeta, if_neg hm, if_neg hm', HexState.Tu, hexTdLogReported, hexKAReported, effReported]
    norm_num [rdiv]
  exact ⟨_, by norm_num [exHex], store_of (l := hexWrites r) (by simp only [EndState.results, hr])⟩

/-- C92 is false for friction coefficients: with (nearly) no flow the value becomes 0, with reversed flow the value of a
converged calculation changes its sign. -/
theorem C92_zeta_false (i o : HStream) (t t' : ParamTable) (h : t.store (.valve i o) = (t', none)) :
    (|i.m| ≤ 1 / 10000 → (t' "zeta").val = some 0) ∧
    (i.m < -(1 / 10000) → ∀ x, (EndState.valve i o).residual "zeta" x = some (.ok 0) → (t' "zeta").val = some (-x)) := by
  obtain ⟨l, hl, rfl⟩ := store_ok h
  have hnd := results_nodup _ l hl
  simp only [EndState.results] at hl
  split at hl
  · cases hl
  · cases hl
  · next pr z hp hz =>
    injection hl with hl
    have hm : ("zeta", some z) ∈ l := by rw [← hl]; simp
    rw [foldl_put_mem l hnd t _ hm]
    constructor
    · intro hm
      unfold calcZeta at hz
      rw [if_pos hm] at hz
      rw [← Except.ok.inj hz]
    · intro hm x hx
      simp only [EndState.residual] at hx
      simp at hx
      rw [(C39_zeta_reverse i o x z hm hz).1 hx]
      simp

/-- Non-trivial case: a valve with reversed flow of 1 kg/s, friction coefficient -50 π². -/
example : ∃ t', (oneSpec "zeta" (-(50 * Real.pi ^ 2))).store (.valve ⟨-1, 300000, 0, 300, 1 / 2⟩ ⟨-1, 299800, 0, 300, 1 / 2⟩)
      = (t', none)
    ∧ (EndState.valve ⟨-1, 300000, 0, 300, 1 / 2⟩ ⟨-1, 299800, 0, 300, 1 / 2⟩).residual "zeta" (-(50 * Real.pi ^ 2))
      = some (.ok 0) := by
  have hz : calcZeta ⟨-1, 300000, 0, 300, 1 / 2⟩ ⟨-1, 299800, 0, 300, 1 / 2⟩ = .ok (50 * Real.pi ^ 2) := by
    unfold calcZeta
    rw [if_neg (by norm_num), rdiv_of_ne (by norm_num)]
    congr 1
    ring
  refine ⟨_, store_of (l := [("pr", some (299800 / 300000)), ("zeta", some (50 * Real.pi ^ 2))]) (by
    simp only [EndState.results, hz, prReported, rdiv_of_ne (show (300000 : ℝ) ≠ 0 by norm_num)]), ?_⟩
  have := (C39_zeta_reverse _ _ (-(50 * Real.pi ^ 2)) _ (by norm_num) hz).2 rfl
  have e : ∀ i o x, (EndState.valve i o).residual "zeta" x = some (zetaRes i o x) := fun i o x => by
    simp [EndState.residual]
  rw [e, this]

/-- C92 is false for simple heat exchangers: a calculation which converges with a negative heat transfer coefficient (heat
flows from the cold to the hot side) stores the absolute value. -/
theorem C92_abs_false (i o : HStream) (Ta x : ℝ) (t t' : ParamTable) (hx : x < 0)
    (hT : 0 < (i.T - Ta) * (o.T - Ta)) (h : t.store (.simple i o (some Ta)) = (t', none))
    (hr : (EndState.simple i o (some Ta)).residual "kA" x = some (.ok 0)) : (t' "kA").val = some (-x) := by
  obtain ⟨l, hl, rfl⟩ := store_ok h
  have hnd := results_nodup _ l hl
  simp only [EndState.results] at hl
  split at hl
  · cases hl
  · cases hl
  · cases hl
  · next pr z kA hp hz hk =>
    injection hl with hl
    have hm : ("kA", some kA) ∈ l := by rw [← hl]; simp
    rw [foldl_put_mem l hnd t _ hm]
    simp [EndState.residual] at hr
    simp only [Option.some.injEq]
    unfold simpleKARes at hr
    unfold simpleKAReported at hk
    rw [simpleTdReported_eq _ _ _ hT] at hk
    split at hr
    · cases hr
    · next td htd =>
      rw [htd] at hk
      simp only at hk
      split at hk
      · cases hk
      · next v hv =>
        obtain ⟨h0, rfl⟩ := rdiv_ok hv
        have hr := Except.ok.inj hr
        have : i.m * (o.h - i.h) / td = -x := by rw [div_eq_iff h0]; linarith
        rw [← Except.ok.inj hk, this, abs_of_pos (by linarith)]

/-- Non-trivial case: a pipe at 400 K in an environment of 300 K takes up heat, kA = -20. -/
example : ∃ t', (oneSpec "kA" (-20)).store (.simple ⟨1, 1, 1000, 400, 1⟩ ⟨1, 1, 3000, 400, 1⟩ (some 300)) = (t', none)
    ∧ (EndState.simple ⟨1, 1, 1000, 400, 1⟩ ⟨1, 1, 3000, 400, 1⟩ (some 300)).residual "kA" (-20) = some (.ok 0) := by
  have hz : calcZeta ⟨1, 1, 1000, 400, 1⟩ ⟨1, 1, 3000, 400, 1⟩ = .ok 0 := by
    unfold calcZeta
    rw [if_neg (by norm_num), rdiv_of_ne (by norm_num)]
    simp
  have hk : simpleKAReported ⟨1, 1, 1000, 400, 1⟩ ⟨1, 1, 3000, 400, 1⟩ 300 = .ok 20 := by
    unfold simpleKAReported simpleTdReported
    norm_num [rdiv]
  refine ⟨_, store_of (l := [("Q", some (1 * (3000 - 1000))), ("pr", some (1 / 1)), ("zeta", some 0), ("kA", some 20)]) (by
    simp only [EndState.results, hz, hk, prReported, rdiv_of_ne (show (1 : ℝ) ≠ 0 by norm_num)]), ?_⟩
  simp [EndState.residual]
  unfold simpleKARes
  rw [(C40_simple_value 400 400 300).1 (by norm_num) (by norm_num)]
  norm_num [Spec.logMean]

end Tespy
