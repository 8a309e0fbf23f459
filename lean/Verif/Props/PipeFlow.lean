import Verif.Props.Friction

/-!
C80: which mass flows a pipe with given pressures can have.
-/
namespace Tespy
open Real

/-- A smooth pipe with positive length, diameter, viscosities and volumes. -/
structure Spec.SmoothPipe (i o : HStream) (viscI viscO L D : ℝ) : Prop where
  vi : 0 < viscI
  vo : 0 < viscO
  len : 0 < L
  dia : 0 < D
  vol : 0 < i.vol + o.vol

/-- Reynolds number with the mean viscosity. -/
noncomputable def Spec.reynolds (i : HStream) (viscI viscO D : ℝ) : ℝ := 4 * |i.m| / (π * D * ((viscI + viscO) / 2))

/-- The pressure the pipe loses at a product `re² f` of one. -/
noncomputable def Spec.lossScale (i o : HStream) (viscI viscO L D : ℝ) : ℝ :=
  (i.vol + o.vol) * L * ((viscI + viscO) / 2) ^ 2 / (4 * D ^ 3)

theorem lossScale_pos {i o : HStream} {viscI viscO L D : ℝ} (h : Spec.SmoothPipe i o viscI viscO L D) :
    0 < Spec.lossScale i o viscI viscO L D := by
  obtain ⟨h1, h2, h3, h4, h5⟩ := h
  unfold Spec.lossScale
  positivity

/-- The equation in terms of the Reynolds number. -/
theorem darcyFunc_forward {i o : HStream} {viscI viscO L D f : ℝ} (h : Spec.SmoothPipe i o viscI viscO L D)
    (hm : 1 / 10000 ≤ i.m) (hf : darcyFriction (Spec.reynolds i viscI viscO D) 0 D = .ok f) :
    darcyFunc i o viscI viscO L 0 D =
      .ok (i.p - o.p - Spec.lossScale i o viscI viscO L D * ((Spec.reynolds i viscI viscO D) ^ 2 * f)) := by
  obtain ⟨h1, h2, h3, h4, h5⟩ := h
  have hm0 : 0 < i.m := lt_of_lt_of_le (by norm_num) hm
  have habs : |i.m| = i.m := abs_of_pos hm0
  have hn : ¬ |i.m| < 1 / 10000 := by rw [habs]; exact not_lt.2 hm
  have hpi := Real.pi_pos
  have hre : 4 * |i.m| / (π * D * (viscI + viscO) / 2) = Spec.reynolds i viscI viscO D := by
    unfold Spec.reynolds; congr 1; ring
  unfold darcyFunc pipeReynolds
  rw [if_neg hn, rdiv_of_ne (by positivity), hre]
  simp only [hf]
  unfold darcyRes
  rw [if_neg hn, rdiv_of_ne (by positivity : π ^ 2 * D ^ 5 ≠ 0)]
  simp only [Except.ok.injEq]
  unfold Spec.reynolds Spec.lossScale
  rw [habs]
  field_simp
  ring

/-- The product `re² f` of smooth pipes. -/
theorem smooth_product {re D : ℝ} (hre : 0 < re) (hD : 0 < D) :
    ∃ f, darcyFriction re 0 D = .ok f ∧ 0 < f ∧ (re ≤ 2320 → re ^ 2 * f = 64 * re) ∧
      (2320 < re → re ≤ 10 ^ 4 → (re ^ 2 * f) ^ 4 = (3164 / 10000) ^ 4 * re ^ 7) ∧
      (2320 < re → 245000 < re ^ 2 * f) := by
  by_cases h6 : re < 10 ^ 6
  · obtain ⟨f, h1, h2, h3, h4, h5⟩ := C80_explicit re 0 D hre hD (.inr (by norm_num)) h6
    have hbl : 2320 < re → re ≤ 10 ^ 4 → (re ^ 2 * f) ^ 4 = (3164 / 10000) ^ 4 * re ^ 7 := by
      intro ha hb
      rw [← h4 ha hb]; ring
    refine ⟨f, h1, h2, fun hl => by linear_combination re * h3 hl, hbl, fun ht => ?_⟩
    by_cases hb : re ≤ 10 ^ 4
    · have h7 : (2320 : ℝ) ^ 7 < re ^ 7 := pow_lt_pow_left₀ ht (by norm_num) (by norm_num)
      have h8 : (245000 : ℝ) ^ 4 < (re ^ 2 * f) ^ 4 := by
        rw [hbl ht hb]
        have : (3164 / 10000 : ℝ) ^ 4 * 2320 ^ 7 < (3164 / 10000) ^ 4 * re ^ 7 :=
          mul_lt_mul_of_pos_left h7 (by norm_num)
        refine lt_trans ?_ this
        norm_num
      exact lt_of_pow_lt_pow_left₀ 4 (by positivity) h8
    · push Not at hb
      have hB := h5 hb
      have hlog : logb 10 re ≤ 6 := by
        rw [Real.logb_le_iff_le_rpow (by norm_num) hre]
        norm_num at h6 ⊢
        linarith
      have hs : 0 < √f := Real.sqrt_pos.2 h2
      have hle : 1 / √f ≤ 93 / 10 := by rw [hB]; linarith
      have hs2 : 10 / 93 ≤ √f := by
        rw [div_le_iff₀ hs] at hle
        linarith
      have hf : (10 / 93) ^ 2 ≤ f := by
        have := pow_le_pow_left₀ (by norm_num) hs2 2
        rwa [Real.sq_sqrt h2.le] at this
      have hr2 : ((10 : ℝ) ^ 4) ^ 2 ≤ re ^ 2 := pow_le_pow_left₀ (by norm_num) hb.le 2
      have := mul_le_mul hr2 hf (by positivity) (by positivity)
      refine lt_of_lt_of_le ?_ this
      norm_num
  · push Not at h6
    obtain ⟨out, ho, -, -⟩ := prandtl_run hre
    obtain ⟨hlo, -⟩ := C08_newton_in_range (prandtlArgs re) (by norm_num [prandtlArgs]) 13 out ho
    have hlo' : 1 / 100000 ≤ out.x := hlo
    have ht : 2320 < re := lt_of_lt_of_le (by norm_num) h6
    refine ⟨out.x, ?_, lt_of_lt_of_le (by norm_num) hlo', fun h => absurd h (not_le.2 ht), fun _ h => ?_, fun _ => ?_⟩
    · unfold darcyFriction newtonReturn
      have h4 : ¬ re ≤ 10 ^ 4 := not_le.2 (lt_of_lt_of_le (by norm_num) h6)
      rw [if_neg (not_le.2 ht), mul_zero, rdiv_of_ne hD.ne']
      simp only [zero_div]
      rw [if_pos (by norm_num), if_neg h4, if_neg (not_lt.2 h6), ho]
    · have : (10 : ℝ) ^ 6 ≤ 10 ^ 4 := le_trans h6 h
      norm_num at this
    · have hr2 : ((10 : ℝ) ^ 6) ^ 2 ≤ re ^ 2 := pow_le_pow_left₀ (by norm_num) h6 2
      have := mul_le_mul hr2 hlo' (by norm_num) (by positivity)
      refine lt_of_lt_of_le ?_ this
      norm_num

/-- C80: within the laminar range, and within the range of Blasius' law, the mass flow of a smooth pipe follows from the
pressures. -/
theorem C80_flow_partial (i i' o o' : HStream) (viscI viscO L D : ℝ) (h : Spec.SmoothPipe i o viscI viscO L D)
    (hv : i'.vol = i.vol) (hvo : o'.vol = o.vol) (hp : i'.p - o'.p = i.p - o.p) (hm : 1 / 10000 ≤ i.m) (hm' : 1 / 10000 ≤ i'.m)
    (hr : (Spec.reynolds i viscI viscO D ≤ 2320 ∧ Spec.reynolds i' viscI viscO D ≤ 2320) ∨
      ((2320 < Spec.reynolds i viscI viscO D ∧ Spec.reynolds i viscI viscO D ≤ 10 ^ 4) ∧
       (2320 < Spec.reynolds i' viscI viscO D ∧ Spec.reynolds i' viscI viscO D ≤ 10 ^ 4)))
    (hs : darcyFunc i o viscI viscO L 0 D = .ok 0) (hs' : darcyFunc i' o' viscI viscO L 0 D = .ok 0) : i.m = i'.m := by
  have h' : Spec.SmoothPipe i' o' viscI viscO L D := ⟨h.vi, h.vo, h.len, h.dia, by rw [hv, hvo]; exact h.vol⟩
  have hc := lossScale_pos h
  have hc' : Spec.lossScale i' o' viscI viscO L D = Spec.lossScale i o viscI viscO L D := by
    unfold Spec.lossScale; rw [hv, hvo]
  have hpi := Real.pi_pos
  have hk : 0 < π * D * ((viscI + viscO) / 2) := by have := h.vi; have := h.vo; have := h.dia; positivity
  have hm0 : 0 < i.m := lt_of_lt_of_le (by norm_num) hm
  have hm0' : 0 < i'.m := lt_of_lt_of_le (by norm_num) hm'
  have er : Spec.reynolds i viscI viscO D = 4 * i.m / (π * D * ((viscI + viscO) / 2)) := by
    unfold Spec.reynolds; rw [abs_of_pos hm0]
  have er' : Spec.reynolds i' viscI viscO D = 4 * i'.m / (π * D * ((viscI + viscO) / 2)) := by
    unfold Spec.reynolds; rw [abs_of_pos hm0']
  have hre : 0 < Spec.reynolds i viscI viscO D := by rw [er]; positivity
  have hre' : 0 < Spec.reynolds i' viscI viscO D := by rw [er']; positivity
  obtain ⟨f, hf, hf0, hl, hb, -⟩ := smooth_product hre h.dia
  obtain ⟨f', hf', hf0', hl', hb', -⟩ := smooth_product hre' h.dia
  rw [darcyFunc_forward h hm hf, Except.ok.injEq] at hs
  rw [darcyFunc_forward h' hm' hf', Except.ok.injEq, hc', hp] at hs'
  have heq : (Spec.reynolds i viscI viscO D) ^ 2 * f = (Spec.reynolds i' viscI viscO D) ^ 2 * f' := by
    have : Spec.lossScale i o viscI viscO L D * ((Spec.reynolds i viscI viscO D) ^ 2 * f) =
        Spec.lossScale i o viscI viscO L D * ((Spec.reynolds i' viscI viscO D) ^ 2 * f') := by linarith
    exact mul_left_cancel₀ hc.ne' this
  have hreq : Spec.reynolds i viscI viscO D = Spec.reynolds i' viscI viscO D := by
    rcases hr with ⟨h1, h2⟩ | ⟨⟨h1, h2⟩, h3, h4⟩
    · rw [hl h1, hl' h2] at heq
      linarith
    · have h7 := hb h1 h2
      rw [heq, hb' h3 h4] at h7
      have h8 := mul_left_cancel₀ (by norm_num : ((3164 / 10000 : ℝ)) ^ 4 ≠ 0) h7
      exact ((pow_left_inj₀ hre'.le hre.le (by norm_num)).1 h8).symm
  rw [er, er', div_left_inj' hk.ne'] at hreq
  linarith

/-- C80 is false as a law for the flow: for every smooth pipe there are pressure differences no mass flow, in either
direction, satisfies the equation for: the loss of pressure jumps where the flow becomes turbulent. -/
theorem C80_no_flow_false (i o : HStream) (viscI viscO L D : ℝ) (h : Spec.SmoothPipe i o viscI viscO L D)
    (hlo : 148480 * Spec.lossScale i o viscI viscO L D < i.p - o.p)
    (hhi : i.p - o.p ≤ 245000 * Spec.lossScale i o viscI viscO L D) :
    darcyFunc i o viscI viscO L 0 D ≠ .ok 0 := by
  have hc := lossScale_pos h
  have hp : 0 < i.p - o.p := lt_trans (by positivity) hlo
  have hpi := Real.pi_pos
  have hk : 0 < π * D * ((viscI + viscO) / 2) := by have := h.vi; have := h.vo; have := h.dia; positivity
  by_cases hm : 1 / 10000 ≤ i.m
  · have hm0 : 0 < i.m := lt_of_lt_of_le (by norm_num) hm
    have hre : 0 < Spec.reynolds i viscI viscO D := by
      unfold Spec.reynolds; rw [abs_of_pos hm0]; positivity
    obtain ⟨f, hf, hf0, hl, -, hb⟩ := smooth_product hre h.dia
    rw [darcyFunc_forward h hm hf]
    intro h0
    rw [Except.ok.injEq] at h0
    by_cases hr : Spec.reynolds i viscI viscO D ≤ 2320
    · rw [hl hr] at h0
      have : Spec.lossScale i o viscI viscO L D * (64 * Spec.reynolds i viscI viscO D) ≤
          Spec.lossScale i o viscI viscO L D * (64 * 2320) := mul_le_mul_of_nonneg_left (by linarith) hc.le
      linarith
    · have := mul_lt_mul_of_pos_left (hb (not_le.1 hr)) hc
      linarith
  · intro h0
    by_cases hs : |i.m| < 1 / 10000
    · unfold darcyFunc at h0
      rw [if_pos hs, Except.ok.injEq] at h0
      linarith
    · have hneg : i.m ≤ -(1 / 10000) := by
        by_contra hn
        exact hs (abs_lt.2 ⟨not_le.1 hn, not_le.1 hm⟩)
      have hm0 : i.m < 0 := by linarith
      have hre : 0 < 4 * |i.m| / (π * D * (viscI + viscO) / 2) := by
        have h1 : 0 < |i.m| := abs_pos.2 hm0.ne
        have h2 : 0 < π * D * (viscI + viscO) / 2 := by
          have := h.vi; have := h.vo; have := h.dia; positivity
        positivity
      obtain ⟨f, hf, hf0, -⟩ := smooth_product hre h.dia
      unfold darcyFunc pipeReynolds at h0
      rw [if_neg hs, rdiv_of_ne (by have := h.vi; have := h.vo; have := h.dia; positivity)] at h0
      simp only [hf] at h0
      have := (C59_darcy i o L D f h.len h.dia hf0 h.vol h0).2.1 hneg
      linarith

/-- C80 is false as a law for the flow, too: the pipe of one metre has two mass flows for the same pressures, one below and one
above the Reynolds number of 10000, because the factor jumps down there. -/
theorem C80_two_flows_false :
    ∃ i i' o : HStream, Spec.SmoothPipe i o 1 1 1 1 ∧ Spec.SmoothPipe i' o 1 1 1 1 ∧ i'.p = i.p ∧ i'.vol = i.vol ∧
      i.m < i'.m ∧ darcyFunc i o 1 1 1 0 1 = .ok 0 ∧ darcyFunc i' o 1 1 1 0 1 = .ok 0 := by
  have hpi := Real.pi_pos
  obtain ⟨f2, hf2, hf20, -, -, hgt⟩ := smooth_product (re := 10100) (D := 1) (by norm_num) one_pos
  obtain ⟨g, hg, -, -, -, hB⟩ := C80_explicit 10100 0 1 (by norm_num) one_pos (.inr (by norm_num)) (by norm_num)
  have hgf : g = f2 := by rw [hf2] at hg; exact (Except.ok.inj hg).symm
  subst hgf
  have hBv := hB (by norm_num)
  have hlog : 4 ≤ logb 10 10100 := by
    rw [Real.le_logb_iff_rpow_le (by norm_num) (by norm_num)]
    norm_num
  set X := (10100 : ℝ) ^ 2 * g with hX
  have hgu : g ≤ (10 / 57) ^ 2 := by
    have hs : 0 < √g := Real.sqrt_pos.2 hf20
    have h1 : 57 / 10 ≤ 1 / √g := by rw [hBv]; linarith
    have h2 : √g ≤ 10 / 57 := by
      rw [le_div_iff₀ hs] at h1
      linarith
    have := pow_le_pow_left₀ hs.le h2 2
    rwa [Real.sq_sqrt hf20.le] at this
  have hXu : X ≤ 3164000 := by rw [hX]; norm_num at hgu ⊢; linarith
  have hXl : 245000 < X := hgt (by norm_num)
  have hX0 : 0 < X := by linarith
  -- the Reynolds number with Blasius' law
  set re : ℝ := (X / (3164 / 10000)) ^ ((4 : ℝ) / 7) with hre
  have hq0 : 0 < X / (3164 / 10000) := by positivity
  have hre0 : 0 < re := Real.rpow_pos_of_pos hq0 _
  have hre7 : re ^ 7 = (X / (3164 / 10000)) ^ 4 := by
    rw [hre, ← Real.rpow_natCast, ← Real.rpow_mul hq0.le, ← Real.rpow_natCast]
    norm_num
  have hreu : re ≤ 10 ^ 4 := by
    by_contra hn
    have h1 : ((10 : ℝ) ^ 4) ^ 7 < re ^ 7 := pow_lt_pow_left₀ (not_le.1 hn) (by norm_num) (by norm_num)
    rw [hre7] at h1
    have h2 : (X / (3164 / 10000)) ^ 4 ≤ (3164000 / (3164 / 10000)) ^ 4 :=
      pow_le_pow_left₀ hq0.le (div_le_div_of_nonneg_right hXu (by norm_num)) 4
    norm_num at h1 h2
    linarith
  have hrel : 2320 < re := by
    by_contra hn
    have h1 : re ^ 7 ≤ 2320 ^ 7 := pow_le_pow_left₀ hre0.le (not_lt.1 hn) 7
    rw [hre7] at h1
    have hXl' : 1000000 < X := by
      have hlog6 : logb 10 10100 ≤ 5 := by
        rw [Real.logb_le_iff_le_rpow (by norm_num) (by norm_num)]; norm_num
      have hs : 0 < √g := Real.sqrt_pos.2 hf20
      have h1 : 1 / √g ≤ 75 / 10 := by rw [hBv]; linarith
      have h2 : 10 / 75 ≤ √g := by
        rw [div_le_iff₀ hs] at h1
        linarith
      have h3 := pow_le_pow_left₀ (by norm_num) h2 2
      rw [Real.sq_sqrt hf20.le] at h3
      rw [hX]; norm_num at h3 ⊢; linarith
    have h2 : (1000000 / (3164 / 10000) : ℝ) ^ 4 < (X / (3164 / 10000)) ^ 4 :=
      pow_lt_pow_left₀ (div_lt_div_of_pos_right hXl' (by norm_num)) (by norm_num) (by norm_num)
    norm_num at h1 h2
    linarith
  obtain ⟨f1, hf1, hf10, -, hb, -⟩ := smooth_product hre0 (one_pos : (0 : ℝ) < 1)
  have hprod : re ^ 2 * f1 = X := by
    have h4 := hb hrel hreu
    rw [hre7] at h4
    have h5 : (re ^ 2 * f1) ^ 4 = X ^ 4 := by rw [h4]; ring
    exact (pow_left_inj₀ (by positivity) hX0.le (by norm_num)).1 h5
  -- the two states
  have hrey : ∀ r : ℝ, 0 < r → ∀ p, Spec.reynolds ⟨π * r / 4, p, 0, 0, 2⟩ 1 1 1 = r := by
    intro r hr p
    unfold Spec.reynolds
    rw [abs_of_pos (by positivity)]
    field_simp
    ring
  have hp1 : Spec.SmoothPipe ⟨π * re / 4, X + 1, 0, 0, 2⟩ ⟨0, 1, 0, 0, 2⟩ 1 1 1 1 :=
    ⟨one_pos, one_pos, one_pos, one_pos, by norm_num⟩
  have hp2 : Spec.SmoothPipe ⟨π * 10100 / 4, X + 1, 0, 0, 2⟩ ⟨0, 1, 0, 0, 2⟩ 1 1 1 1 :=
    ⟨one_pos, one_pos, one_pos, one_pos, by norm_num⟩
  have hpi3 : 3 < π := Real.pi_gt_three
  have big : ∀ r : ℝ, 2320 < r → 1 / 10000 ≤ π * r / 4 := by
    intro r hr
    have : 3 * 2320 ≤ π * r := mul_le_mul hpi3.le hr.le (by norm_num) (by linarith)
    linarith
  refine ⟨_, _, _, hp1, hp2, rfl, rfl, ?_, ?_, ?_⟩
  · have : re < 10100 := lt_of_le_of_lt hreu (by norm_num)
    have := mul_lt_mul_of_pos_left this hpi
    show π * re / 4 < π * 10100 / 4
    linarith
  · rw [darcyFunc_forward hp1 (big re hrel) (by rw [hrey re hre0]; exact hf1), hrey re hre0, hprod]
    simp only [Spec.lossScale]
    norm_num
  · rw [darcyFunc_forward hp2 (big 10100 (by norm_num)) (by rw [hrey 10100 (by norm_num)]; exact hf2),
      hrey 10100 (by norm_num)]
    simp only [Spec.lossScale]
    norm_num [hX]

-- non-vacuity: a laminar flow, and the interval without solutions is not empty
example : ∃ i o : HStream, Spec.SmoothPipe i o 1 1 1 1 ∧ 1 / 10000 ≤ i.m ∧ Spec.reynolds i 1 1 1 ≤ 2320 ∧
    darcyFunc i o 1 1 1 0 1 = .ok 0 := by
  have hpi := Real.pi_pos
  have hp : Spec.SmoothPipe ⟨π * 1000 / 4, 64001, 0, 0, 2⟩ ⟨0, 1, 0, 0, 2⟩ 1 1 1 1 :=
    ⟨one_pos, one_pos, one_pos, one_pos, by norm_num⟩
  have hr : Spec.reynolds ⟨π * 1000 / 4, 64001, 0, 0, 2⟩ 1 1 1 = 1000 := by
    unfold Spec.reynolds
    rw [abs_of_pos (by positivity)]
    field_simp
    ring
  have hm : (1 : ℝ) / 10000 ≤ π * 1000 / 4 := by linarith [Real.pi_gt_three]
  obtain ⟨f, hf, -, hl, -⟩ := smooth_product (re := 1000) (D := 1) (by norm_num) one_pos
  refine ⟨_, _, hp, hm, by rw [hr]; norm_num, ?_⟩
  rw [darcyFunc_forward hp hm (by rw [hr]; exact hf), hr, hl (by norm_num)]
  simp only [Spec.lossScale]
  norm_num

example : ∃ i o : HStream, Spec.SmoothPipe i o 1 1 1 1 ∧ 148480 * Spec.lossScale i o 1 1 1 1 < i.p - o.p ∧
    i.p - o.p ≤ 245000 * Spec.lossScale i o 1 1 1 1 :=
  ⟨⟨1, 200000, 0, 0, 2⟩, ⟨1, 1, 0, 0, 2⟩, ⟨one_pos, one_pos, one_pos, one_pos, by norm_num⟩,
    by norm_num [Spec.lossScale], by norm_num [Spec.lossScale]⟩

end Tespy
