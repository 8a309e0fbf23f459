import Mathlib.Analysis.Calculus.Deriv.MeanValue
import Mathlib.Analysis.SpecialFunctions.Log.Deriv
import Verif.Model.EntropyBal

/-!
C107: entropy balances of components.
-/
namespace Tespy
open Real

/-- What thermodynamics says about the entropy of a fluid of constant composition, for pressures in `P` and enthalpies in `H`:
at constant pressure `dh = T ds`, `T` is positive and does not fall with the enthalpy (stability); the entropy does not fall when
the pressure falls at constant enthalpy (`T ds = - v dp`). -/
structure Spec.Fluid (s T : ℝ → ℝ → ℝ) (P H : Set ℝ) : Prop where
  pconv : P.OrdConnected
  hconv : H.OrdConnected
  ppos : ∀ p ∈ P, 0 < p
  tpos : ∀ p ∈ P, ∀ h ∈ H, 0 < T p h
  gibbs : ∀ p ∈ P, ∀ h ∈ H, HasDerivAt (s p) (1 / T p h) h
  warmer : ∀ p ∈ P, MonotoneOn (T p) H
  throttle : ∀ h ∈ H, AntitoneOn (fun p => s p h) P

/-- the stream consists of this fluid and is in its range -/
structure Spec.StreamOf (s : ℝ → ℝ → ℝ) (P H : Set ℝ) (c : EntStream) : Prop where
  fluid : c.sPH = s
  pr : c.p ∈ P
  en : c.h ∈ H

variable {s T s₁ T₁ s₂ T₂ : ℝ → ℝ → ℝ} {P H P₁ H₁ P₂ H₂ : Set ℝ}

/-- mean value theorem: the mean temperature is a temperature on the way -/
theorem Spec.Fluid.mean (F : Spec.Fluid s T P H) {p a b : ℝ} (hp : p ∈ P) (ha : a ∈ H) (hb : b ∈ H) (hab : a < b) :
    ∃ t, 0 < t ∧ T p a ≤ t ∧ t ≤ T p b ∧ s p b - s p a = (b - a) / t := by
  have hsub : Set.Icc a b ⊆ H := F.hconv.out ha hb
  obtain ⟨c, hc, e⟩ := exists_hasDerivAt_eq_slope (s p) (fun h => 1 / T p h) hab
    (fun x hx => (F.gibbs p hp x (hsub hx)).continuousAt.continuousWithinAt)
    (fun x hx => F.gibbs p hp x (hsub (Set.Ioo_subset_Icc_self hx)))
  have hcH := hsub (Set.Ioo_subset_Icc_self hc)
  refine ⟨T p c, F.tpos p hp c hcH, F.warmer p hp ha hcH hc.1.le, F.warmer p hp hcH hb hc.2.le, ?_⟩
  have : b - a ≠ 0 := by linarith
  rw [eq_div_iff this] at e
  rw [← e]
  ring

/-- entropy rises with enthalpy -/
theorem Spec.Fluid.lt_iff (F : Spec.Fluid s T P H) {p a b : ℝ} (hp : p ∈ P) (ha : a ∈ H) (hb : b ∈ H) :
    s p a ≤ s p b ↔ a ≤ b := by
  have key : ∀ {a b : ℝ}, a ∈ H → b ∈ H → a < b → s p a < s p b := by
    intro a b ha hb hab
    obtain ⟨t, ht, -, -, e⟩ := F.mean hp ha hb hab
    have : 0 < (b - a) / t := div_pos (by linarith) ht
    linarith
  constructor
  · intro h
    by_contra hn
    have := key hb ha (not_le.1 hn)
    linarith
  · intro h
    rcases eq_or_lt_of_le h with e | e
    · rw [e]
    · exact (key ha hb e).le

/-- tangent above the entropy -/
theorem Spec.Fluid.tangent (F : Spec.Fluid s T P H) {p a b : ℝ} (hp : p ∈ P) (ha : a ∈ H) (hb : b ∈ H) :
    s p b ≤ s p a + (b - a) / T p a := by
  have hT := F.tpos p hp a ha
  rcases lt_trichotomy a b with h | h | h
  · obtain ⟨t, ht, h1, -, e⟩ := F.mean hp ha hb h
    have : (b - a) / t ≤ (b - a) / T p a := div_le_div_of_nonneg_left (by linarith) hT h1
    linarith
  · rw [h]; simp
  · obtain ⟨t, ht, -, h2, e⟩ := F.mean hp hb ha h
    have h3 : (a - b) / T p a ≤ (a - b) / t := div_le_div_of_nonneg_left (by linarith) ht h2
    have h4 : (b - a) / T p a = -((a - b) / T p a) := by ring
    linarith

/-- the mean pressure of a heat exchanger lies between the pressures -/
theorem pStar_mem {P : Set ℝ} (hP : P.OrdConnected) {a b : ℝ} (ha : a ∈ P) (hb : b ∈ P) (h0 : 0 < b) (h : b ≤ a) :
    a * √(b / a) ∈ P ∧ b ≤ a * √(b / a) ∧ a * √(b / a) ≤ a := by
  have ha0 : 0 < a := lt_of_lt_of_le h0 h
  have hq0 : 0 < b / a := div_pos h0 ha0
  have hq1 : b / a ≤ 1 := (div_le_one ha0).2 h
  have h1 : √(b / a) ≤ 1 := Real.sqrt_le_one.2 hq1
  have h2 : b / a ≤ √(b / a) := by
    refine Real.le_sqrt_of_sq_le ?_
    nlinarith
  have h3 : b ≤ a * √(b / a) := by
    rw [div_le_iff₀ ha0] at h2
    linarith
  have h4 : a * √(b / a) ≤ a := by nlinarith
  exact ⟨hP.out hb ha ⟨h3, h4⟩, h3, h4⟩

/-- C107, turbomachines: the entropy production is not negative exactly if the enthalpy at the outlet is not below that of the
isentropic change of state. -/
theorem C107_machine (F : Spec.Fluid s T P H) (i o : EntStream) (hi : Spec.StreamOf s P H i) (ho : Spec.StreamOf s P H o)
    (hm : 0 < i.m) (his : ℝ) (hH : his ∈ H) (hs : s o.p his = s i.p i.h) :
    0 ≤ machineSirr i o ↔ his ≤ o.h := by
  unfold machineSirr EntStream.s
  rw [hi.fluid, ho.fluid, ← hs, mul_nonneg_iff_of_pos_left hm, sub_nonneg]
  exact F.lt_iff ho.pr hH ho.en

/-- C107, pumps and compressors: for a machine raising the enthalpy the entropy production is not negative exactly if the
isentropic efficiency is at most one. -/
theorem C107_compressor (F : Spec.Fluid s T P H) (i o : EntStream) (hi : Spec.StreamOf s P H i) (ho : Spec.StreamOf s P H o)
    (hm : 0 < i.m) (his : ℝ) (hH : his ∈ H) (hs : s o.p his = s i.p i.h) (hup : i.h < o.h) :
    0 ≤ machineSirr i o ↔ (his - i.h) / (o.h - i.h) ≤ 1 := by
  rw [C107_machine F i o hi ho hm his hH hs, div_le_one (by linarith)]
  constructor <;> intro h <;> linarith

/-- C107, turbines: likewise, if the isentropic change of state lowers the enthalpy. -/
theorem C107_turbine (F : Spec.Fluid s T P H) (i o : EntStream) (hi : Spec.StreamOf s P H i) (ho : Spec.StreamOf s P H o)
    (hm : 0 < i.m) (his : ℝ) (hH : his ∈ H) (hs : s o.p his = s i.p i.h) (hdown : his < i.h) :
    0 ≤ machineSirr i o ↔ (o.h - i.h) / (his - i.h) ≤ 1 := by
  rw [C107_machine F i o hi ho hm his hH hs, div_le_one_of_neg (by linarith)]
  constructor <;> intro h <;> linarith

/-- C107, valves: throttling never destroys entropy. -/
theorem C107_valve (F : Spec.Fluid s T P H) (i o : EntStream) (hi : Spec.StreamOf s P H i) (ho : Spec.StreamOf s P H o)
    (hm : 0 ≤ i.m) (hh : o.h = i.h) (hp : o.p ≤ i.p) : 0 ≤ machineSirr i o := by
  unfold machineSirr EntStream.s
  rw [hi.fluid, ho.fluid, hh]
  have := F.throttle i.h hi.en ho.pr hi.pr hp
  simp only at this
  exact mul_nonneg hm (by linarith)

/-- C107, heat transfer of a stream: with the mean pressure `p` the entropy change is split into the share of the heat and an
entropy production, which is not negative if the pressure falls; the sign of the first is that of the heat; the mean temperature
lies between the temperatures at the mean pressure, and times the entropy it is the heat. -/
theorem C107_stream (F : Spec.Fluid s T P H) (i o : EntStream) (hi : Spec.StreamOf s P H i) (ho : Spec.StreamOf s P H o)
    (hm : 0 < i.m) (hp : o.p ≤ i.p) :
    (simpleEnt i o).SQ + (simpleEnt i o).Sirr = i.m * (o.s - i.s) ∧
    0 ≤ (simpleEnt i o).Sirr ∧
    (0 ≤ (simpleEnt i o).SQ ↔ 0 ≤ i.m * (o.h - i.h)) ∧
    (o.h ≠ i.h → ∃ t, (simpleEnt i o).TmQ = some t ∧ t * (simpleEnt i o).SQ = i.m * (o.h - i.h) ∧
      min (T (i.p * √(o.p / i.p)) i.h) (T (i.p * √(o.p / i.p)) o.h) ≤ t ∧
      t ≤ max (T (i.p * √(o.p / i.p)) i.h) (T (i.p * √(o.p / i.p)) o.h)) ∧
    (o.h = i.h → (simpleEnt i o).TmQ = none ∧ (simpleEnt i o).SQ = 0) := by
  obtain ⟨hP, hle, hge⟩ := pStar_mem F.pconv hi.pr ho.pr (F.ppos _ ho.pr) hp
  unfold simpleEnt EntStream.s
  rw [hi.fluid, ho.fluid]
  simp only
  set q := i.p * √(o.p / i.p) with hq
  refine ⟨by ring, ?_, ?_, ?_, ?_⟩
  · have h1 := F.throttle i.h hi.en hP hi.pr hge
    have h2 := F.throttle o.h ho.en ho.pr hP hle
    simp only at h1 h2
    have : i.m * (s o.p o.h - s i.p i.h) - i.m * (s q o.h - s q i.h)
        = i.m * ((s o.p o.h - s q o.h) + (s q i.h - s i.p i.h)) := by ring
    rw [this]
    exact mul_nonneg hm.le (by linarith)
  · rw [mul_nonneg_iff_of_pos_left hm, mul_nonneg_iff_of_pos_left hm, sub_nonneg, sub_nonneg]
    exact F.lt_iff hP hi.en ho.en
  · intro hne
    unfold quot?
    rcases lt_or_gt_of_ne hne with h | h
    · obtain ⟨t, ht, h1, h2, e⟩ := F.mean hP ho.en hi.en h
      have hs : s q o.h - s q i.h = (o.h - i.h) / t := by
        have : (o.h - i.h) / t = -((i.h - o.h) / t) := by ring
        rw [this, ← e]; ring
      have hne' : o.h - i.h ≠ 0 := by linarith
      rw [hs, if_neg (div_ne_zero hne' ht.ne')]
      refine ⟨t, ?_, ?_, (min_le_right _ _).trans h1, h2.trans (le_max_left _ _)⟩
      · rw [div_div_cancel₀ hne']
      · field_simp
    · obtain ⟨t, ht, h1, h2, e⟩ := F.mean hP hi.en ho.en h
      have hne' : o.h - i.h ≠ 0 := by linarith
      rw [e, if_neg (div_ne_zero hne' ht.ne')]
      refine ⟨t, ?_, ?_, (min_le_left _ _).trans h1, h2.trans (le_max_right _ _)⟩
      · rw [div_div_cancel₀ hne']
      · field_simp
  · intro h
    rw [h]
    unfold quot?
    simp

/-- one side of a heat exchanger is balanced like a simple heat exchanger -/
theorem sideEnt_eq (i o : EntStream) (hm : i.m ≠ 0) : sideEnt (o.p / i.p) i o = simpleEnt i o := by
  unfold sideEnt simpleEnt quot?
  simp only [HeatEnt.mk.injEq, true_and]
  by_cases h : o.sPH (i.p * √(o.p / i.p)) o.h - i.sPH (i.p * √(o.p / i.p)) i.h = 0
  · rw [h]; simp
  · rw [if_neg (mul_ne_zero hm h), if_neg h, mul_div_mul_left _ _ hm]

/-- C107, sides of heat exchangers: each of them is balanced like a simple heat exchanger, so that C107_stream holds for it. -/
theorem C107_sides (i1 o1 i2 o2 : EntStream) (hm1 : i1.m ≠ 0) (hm2 : i2.m ≠ 0) :
    (hexEnt i1 o1 i2 o2).1 = simpleEnt i1 o1 ∧ (hexEnt i1 o1 i2 o2).2.1 = simpleEnt i2 o2 :=
  ⟨sideEnt_eq i1 o1 hm1, sideEnt_eq i2 o2 hm2⟩

/-- C107, heat exchangers: the entropy production is that of both streams; it is not negative if the pressures fall, the heat
released by the hot stream is received by the cold one and the hot stream is nowhere colder than the cold one (`q` is the heat
transferred between the cold end and the place looked at). -/
theorem C107_heat_exchanger (F₁ : Spec.Fluid s₁ T₁ P₁ H₁) (F₂ : Spec.Fluid s₂ T₂ P₂ H₂) (i1 o1 i2 o2 : EntStream)
    (hi1 : Spec.StreamOf s₁ P₁ H₁ i1) (ho1 : Spec.StreamOf s₁ P₁ H₁ o1)
    (hi2 : Spec.StreamOf s₂ P₂ H₂ i2) (ho2 : Spec.StreamOf s₂ P₂ H₂ o2)
    (hm1 : 0 < i1.m) (hm2 : 0 < i2.m) :
    (hexEnt i1 o1 i2 o2).2.2 = i1.m * (o1.s - i1.s) + i2.m * (o2.s - i2.s) ∧
    (o1.p ≤ i1.p → o2.p ≤ i2.p → o1.h ≤ i1.h → i1.m * (o1.h - i1.h) + i2.m * (o2.h - i2.h) = 0 →
      (∀ q, 0 ≤ q → q ≤ i2.m * (o2.h - i2.h) →
        T₂ (i2.p * √(o2.p / i2.p)) (i2.h + q / i2.m) ≤ T₁ (i1.p * √(o1.p / i1.p)) (o1.h + q / i1.m)) →
      0 ≤ (hexEnt i1 o1 i2 o2).2.2) := by
  constructor
  · unfold hexEnt
    simp only
    rw [sideEnt_eq i1 o1 hm1.ne', sideEnt_eq i2 o2 hm2.ne']
    unfold simpleEnt
    simp only
    ring
  · intro hp1 hp2 hh1 hbal hT
    obtain ⟨hP1, -, -⟩ := pStar_mem F₁.pconv hi1.pr ho1.pr (F₁.ppos _ ho1.pr) hp1
    obtain ⟨hP2, -, -⟩ := pStar_mem F₂.pconv hi2.pr ho2.pr (F₂.ppos _ ho2.pr) hp2
    have e1 := (C107_stream F₁ i1 o1 hi1 ho1 hm1 hp1).2.1
    have e2 := (C107_stream F₂ i2 o2 hi2 ho2 hm2 hp2).2.1
    unfold hexEnt
    simp only
    rw [sideEnt_eq i1 o1 hm1.ne', sideEnt_eq i2 o2 hm2.ne']
    suffices hS : 0 ≤ (simpleEnt i1 o1).SQ + (simpleEnt i2 o2).SQ by linarith
    unfold simpleEnt
    rw [hi1.fluid, ho1.fluid, hi2.fluid, ho2.fluid]
    simp only
    set p1 := i1.p * √(o1.p / i1.p) with hp1d
    set p2 := i2.p * √(o2.p / i2.p) with hp2d
    set Q := i2.m * (o2.h - i2.h) with hQ
    have hQ1 : Q = i1.m * (i1.h - o1.h) := by linarith
    have hQ0 : 0 ≤ Q := by rw [hQ1]; exact mul_nonneg hm1.le (by linarith)
    have e1Q : o1.h + Q / i1.m = i1.h := by rw [hQ1]; field_simp; ring
    have e2Q : i2.h + Q / i2.m = o2.h := by rw [hQ]; field_simp; ring
    have hin : ∀ q ∈ Set.Icc 0 Q, o1.h + q / i1.m ∈ H₁ ∧ i2.h + q / i2.m ∈ H₂ := by
      intro q hq
      have a1 : 0 ≤ q / i1.m := div_nonneg hq.1 hm1.le
      have a2 : 0 ≤ q / i2.m := div_nonneg hq.1 hm2.le
      have b1 : q / i1.m ≤ Q / i1.m := div_le_div_of_nonneg_right hq.2 hm1.le
      have b2 : q / i2.m ≤ Q / i2.m := div_le_div_of_nonneg_right hq.2 hm2.le
      exact ⟨F₁.hconv.out ho1.en hi1.en ⟨by linarith, by linarith⟩, F₂.hconv.out hi2.en ho2.en ⟨by linarith, by linarith⟩⟩
    have hd : ∀ q ∈ Set.Icc 0 Q, HasDerivAt (fun q => i2.m * s₂ p2 (i2.h + q / i2.m) - i1.m * s₁ p1 (o1.h + q / i1.m))
        (1 / T₂ p2 (i2.h + q / i2.m) - 1 / T₁ p1 (o1.h + q / i1.m)) q := by
      intro q hq
      obtain ⟨h1, h2⟩ := hin q hq
      have d1 : HasDerivAt (fun q : ℝ => o1.h + q / i1.m) (1 / i1.m) q := ((hasDerivAt_id q).div_const i1.m).const_add o1.h
      have d2 : HasDerivAt (fun q : ℝ => i2.h + q / i2.m) (1 / i2.m) q := ((hasDerivAt_id q).div_const i2.m).const_add i2.h
      have g1 := ((F₁.gibbs p1 hP1 _ h1).comp q d1).const_mul i1.m
      have g2 := ((F₂.gibbs p2 hP2 _ h2).comp q d2).const_mul i2.m
      refine HasDerivAt.congr_deriv (g2.sub g1) ?_
      have a1 := hm1.ne'
      have a2 := hm2.ne'
      rw [mul_comm (1 / T₂ p2 (i2.h + q / i2.m)), mul_comm (1 / T₁ p1 (o1.h + q / i1.m)), ← mul_assoc, ← mul_assoc,
        mul_one_div_cancel a1, mul_one_div_cancel a2, one_mul, one_mul]
    have hmono : MonotoneOn (fun q => i2.m * s₂ p2 (i2.h + q / i2.m) - i1.m * s₁ p1 (o1.h + q / i1.m)) (Set.Icc 0 Q) := by
      refine monotoneOn_of_deriv_nonneg (convex_Icc 0 Q) (fun q hq => (hd q hq).continuousAt.continuousWithinAt) ?_ ?_
      · intro q hq
        exact (hd q (interior_subset hq)).differentiableAt.differentiableWithinAt
      · intro q hq
        have hq' := interior_subset hq
        rw [(hd q hq').deriv, sub_nonneg]
        exact one_div_le_one_div_of_le (F₂.tpos p2 hP2 _ (hin q hq').2) (hT q hq'.1 hq'.2)
    have := hmono ⟨le_rfl, hQ0⟩ ⟨hQ0, le_rfl⟩ hQ0
    simp only [zero_div, add_zero] at this
    rw [e1Q, e2Q] at this
    linarith

theorem mergeEnt_eq (l : List EntStream) (o : EntStream) :
    mergeEnt l o = o.m * (o.s - o.sRef) - (l.map fun i => i.m * (i.s - i.sRef)).sum := by
  have : ∀ (l : List EntStream) (a : ℝ),
      l.foldl (fun a i => a - i.m * (i.s - i.sRef)) a = a - (l.map fun i => i.m * (i.s - i.sRef)).sum := by
    intro l
    induction l with
    | nil => intro a; simp
    | cons i l ih => intro a; rw [List.foldl_cons, ih, List.map_cons, List.sum_cons]; ring
  exact this l _

/-- C107, merges of one fluid: the entropy production is that of the streams and not negative if mass and energy are conserved,
the pressure does not rise and all streams flow in their direction. -/
theorem C107_merge (F : Spec.Fluid s T P H) (inl : List EntStream) (o : EntStream) (ref : ℝ)
    (hi : ∀ i ∈ inl, Spec.StreamOf s P H i ∧ 0 ≤ i.m ∧ o.p ≤ i.p ∧ i.sRef = ref) (ho : Spec.StreamOf s P H o)
    (hr : o.sRef = ref) (hm : o.m = (inl.map EntStream.m).sum) (he : o.m * o.h = (inl.map fun i => i.m * i.h).sum) :
    mergeEnt inl o = o.m * o.s - (inl.map fun i => i.m * i.s).sum ∧ 0 ≤ mergeEnt inl o := by
  have hsum : (inl.map fun i => i.m * (i.s - i.sRef)).sum = (inl.map fun i => i.m * i.s).sum - (inl.map EntStream.m).sum * ref := by
    clear hm he
    induction inl with
    | nil => simp
    | cons i l ih =>
      have := ih (fun j hj => hi j (List.mem_cons_of_mem _ hj))
      simp only [List.map_cons, List.sum_cons, this, (hi i List.mem_cons_self).2.2.2]
      ring
  have hE : mergeEnt inl o = o.m * o.s - (inl.map fun i => i.m * i.s).sum := by
    rw [mergeEnt_eq, hsum, hr, hm]
    ring
  refine ⟨hE, ?_⟩
  have hb : (inl.map fun i => i.m * i.s).sum
      ≤ (inl.map EntStream.m).sum * s o.p o.h
        + ((inl.map fun i => i.m * i.h).sum - (inl.map EntStream.m).sum * o.h) / T o.p o.h := by
    clear hm he hsum hE
    induction inl with
    | nil => simp
    | cons i l ih =>
      have h1 := ih (fun j hj => hi j (List.mem_cons_of_mem _ hj))
      obtain ⟨hs, hmi, hpi, -⟩ := hi i List.mem_cons_self
      have h2 := F.tangent ho.pr ho.en hs.en
      have h3 := F.throttle i.h hs.en ho.pr hs.pr hpi
      simp only at h3
      have h4 : i.m * i.s ≤ i.m * (s o.p o.h + (i.h - o.h) / T o.p o.h) := by
        refine mul_le_mul_of_nonneg_left ?_ hmi
        unfold EntStream.s
        rw [hs.fluid]
        linarith
      simp only [List.map_cons, List.sum_cons]
      have h5 : (i.m + (l.map EntStream.m).sum) * s o.p o.h
            + (i.m * i.h + (l.map fun i => i.m * i.h).sum - (i.m + (l.map EntStream.m).sum) * o.h) / T o.p o.h
          = i.m * (s o.p o.h + (i.h - o.h) / T o.p o.h) + ((l.map EntStream.m).sum * s o.p o.h
            + ((l.map fun i => i.m * i.h).sum - (l.map EntStream.m).sum * o.h) / T o.p o.h) := by ring
      rw [h5]
      linarith
  rw [← hm, ← he, sub_self, zero_div, add_zero] at hb
  rw [hE]
  have : o.s = s o.p o.h := by unfold EntStream.s; rw [ho.fluid]
  rw [this]
  linarith

/-! an ideal gas with `cp = 1`, `R = 1`, and streams -/

/-- entropy of the gas -/
noncomputable def entGas (p h : ℝ) : ℝ := log h - log p

theorem entGas_fluid : Spec.Fluid entGas (fun _ h => h) (Set.Ioi 0) (Set.Ioi 0) where
  pconv := Set.ordConnected_Ioi
  hconv := Set.ordConnected_Ioi
  ppos := fun _ h => h
  tpos := fun _ _ _ h => h
  gibbs := by
    intro p _ h hh
    have := (Real.hasDerivAt_log (ne_of_gt hh)).sub_const (log p)
    rw [← one_div] at this
    exact this
  warmer := fun _ _ _ _ _ _ h => h
  throttle := by
    intro h _ a ha b _ hab
    simp only [entGas]
    have := Real.log_le_log ha hab
    linarith

/-- a stream of the gas -/
noncomputable def gasStream (m p h : ℝ) : EntStream := ⟨m, p, h, entGas, entGas 100000 300⟩

theorem gasStream_of {m p h : ℝ} (hp : 0 < p) (hh : 0 < h) :
    Spec.StreamOf entGas (Set.Ioi 0) (Set.Ioi 0) (gasStream m p h) := ⟨rfl, hp, hh⟩

/-- compression from 300 to 700 at four times the pressure, isentropic end enthalpy 1200: efficiency above one, negative entropy
production -/
example : ¬ 0 ≤ machineSirr (gasStream 1 1 300) (gasStream 1 4 700) := by
  rw [C107_machine entGas_fluid _ _ (gasStream_of one_pos (by norm_num)) (gasStream_of (by norm_num) (by norm_num)) one_pos
    1200 (by norm_num [Set.mem_Ioi]) (by
      simp only [gasStream, entGas, Real.log_one, sub_zero]
      rw [← Real.log_div (by norm_num) (by norm_num)]
      norm_num)]
  norm_num [gasStream]

example : 0 ≤ machineSirr (gasStream 1 2 300) (gasStream 1 1 300) :=
  C107_valve entGas_fluid _ _ (gasStream_of (by norm_num) (by norm_num)) (gasStream_of (by norm_num) (by norm_num))
    (by norm_num [gasStream]) rfl (by norm_num [gasStream])

example : ∃ t, (simpleEnt (gasStream 2 2 300) (gasStream 2 1 400)).TmQ = some t ∧ 300 ≤ t ∧ t ≤ 400 := by
  obtain ⟨t, h1, -, h2, h3⟩ := (C107_stream entGas_fluid (gasStream 2 2 300) (gasStream 2 1 400)
    (gasStream_of (by norm_num) (by norm_num)) (gasStream_of (by norm_num) (by norm_num)) (by norm_num [gasStream])
    (by norm_num [gasStream])).2.2.2.1 (by norm_num [gasStream])
  simp only [gasStream] at h2 h3
  exact ⟨t, h1, by norm_num at h2; exact h2, by norm_num at h3; exact h3⟩

example : 0 ≤ (hexEnt (gasStream 1 2 500) (gasStream 1 1 400) (gasStream 1 2 300) (gasStream 1 1 400)).2.2 := by
  refine (C107_heat_exchanger entGas_fluid entGas_fluid _ _ _ _ (gasStream_of (by norm_num) (by norm_num))
    (gasStream_of (by norm_num) (by norm_num)) (gasStream_of (by norm_num) (by norm_num))
    (gasStream_of (by norm_num) (by norm_num)) (by norm_num [gasStream]) (by norm_num [gasStream])).2
    (by norm_num [gasStream]) (by norm_num [gasStream]) (by norm_num [gasStream]) (by norm_num [gasStream]) ?_
  intro q _ _
  simp only [gasStream]
  linarith

example : 0 ≤ mergeEnt [gasStream 1 2 300, gasStream 1 1 500] (gasStream 2 1 400) := by
  refine (C107_merge entGas_fluid _ _ (entGas 100000 300) ?_ (gasStream_of (by norm_num) (by norm_num)) rfl
    (by norm_num [gasStream]) (by norm_num [gasStream])).2
  intro i hi
  simp only [List.mem_cons, List.not_mem_nil, or_false] at hi
  rcases hi with rfl | rfl
  · exact ⟨gasStream_of (by norm_num) (by norm_num), by norm_num [gasStream], by norm_num [gasStream], rfl⟩
  · exact ⟨gasStream_of (by norm_num) (by norm_num), by norm_num [gasStream], by norm_num [gasStream], rfl⟩

/-! mixing of different gases -/

/-- an ideal gas with `cp = 1`, `R = 1`, `M = 1` -/
noncomputable def entWrapper : Wrapper ℝ :=
  ⟨1, 1, 0, fun _ T => T, fun p T => log T - log p, fun p T => p / T, fun _ _ => 1, fun _ _ => 0, fun _ _ => 0, fun _ _ => 1,
    fun _ => 1, fun _ => 300, fun _ => false⟩

/-- nitrogen, oxygen or both by halves -/
noncomputable def entN2 : FluidData ℝ := [("N2", ⟨1, entWrapper⟩)]
noncomputable def entO2 : FluidData ℝ := [("O2", ⟨1, entWrapper⟩)]
noncomputable def entAir : FluidData ℝ := [("N2", ⟨1 / 2, entWrapper⟩), ("O2", ⟨1 / 2, entWrapper⟩)]

/-- entropy of the stream by the rule for ideal mixtures; the temperature is the enthalpy -/
noncomputable def mixS (fd : FluidData ℝ) (p h : ℝ) : ℝ :=
  match sMixIdeal p h fd with
  | .ok v => v
  | .error _ => 0

/-- a stream of a mixture -/
noncomputable def mixStream (m p h : ℝ) (fd : FluidData ℝ) : EntStream := ⟨m, p, h, mixS fd, mixS fd 100000 (5963 / 20)⟩

theorem mixS_values (p h : ℝ) : mixS entN2 p h = log h - log p ∧ mixS entO2 p h = log h - log p ∧
    mixS entAir p h = log h - log (p / 2) := by
  refine ⟨?_, ?_, ?_⟩
  · norm_num [mixS, sMixIdeal, molarFractions, entN2, entWrapper, sumPartial, detected, ERR, Dict.getItem, Dict.get?]
  · norm_num [mixS, sMixIdeal, molarFractions, entO2, entWrapper, sumPartial, detected, ERR, Dict.getItem, Dict.get?]
  · norm_num [mixS, sMixIdeal, molarFractions, entAir, entWrapper, sumPartial, detected, ERR, Dict.getItem, Dict.get?]
    rw [div_eq_mul_inv]
    ring_nf

/-- C107, merges of different fluids: the entropy production by mixing is left out, as the reference entropy of the mixture already
contains it. One kilogram of nitrogen and one of oxygen, mixed at the reference state: mass and energy are conserved, the entropy
rises, but no entropy production is reported. -/
theorem C107_merge_mixing_false :
    ¬ ∀ (inl : List EntStream) (o : EntStream), (∀ i ∈ inl, 0 ≤ i.m ∧ o.p = i.p) → o.m = (inl.map EntStream.m).sum →
      o.m * o.h = (inl.map fun i => i.m * i.h).sum → 0 < o.m * o.s - (inl.map fun i => i.m * i.s).sum →
      0 < mergeEnt inl o := by
  intro hall
  have := hall [mixStream 1 100000 (5963 / 20) entN2, mixStream 1 100000 (5963 / 20) entO2]
    (mixStream 2 100000 (5963 / 20) entAir) (by
      intro i hi
      simp only [List.mem_cons, List.not_mem_nil, or_false] at hi
      rcases hi with rfl | rfl <;> norm_num [mixStream]) (by norm_num [mixStream]) (by norm_num [mixStream]) (by
      have h := mixS_values 100000 (5963 / 20)
      have hl : log (100000 / 2 : ℝ) < log 100000 := Real.log_lt_log (by norm_num) (by norm_num)
      simp only [mixStream, EntStream.s, List.map_cons, List.map_nil, List.sum_cons, List.sum_nil, h.1, h.2.1, h.2.2]
      linarith)
  rw [mergeEnt_eq] at this
  simp [mixStream, EntStream.s] at this

/-- the attribute is missing -/
theorem chamberLoop_missing (inl : List EntStream) (hne : inl ≠ []) (a : Dict String ℝ) (h : Dict.get? a "S_Qcomb" = none) :
    chamberLoop inl a = .error .attributeError := by
  cases inl with
  | nil => exact absurd rfl hne
  | cons i is => rw [chamberLoop, h]

/-- C107: the entropy balance of combustion chambers raises AttributeError for all states, unless the user has created the
attribute beforehand. -/
theorem C107_chamber_false (inl : List EntStream) (hne : inl ≠ []) (o : EntStream) (ti : ℝ) (attrs : Dict String ℝ)
    (h : Dict.get? attrs "S_Qcomb" = none) : chamberEnt inl o ti attrs = .error .attributeError := by
  have : Dict.get? (Dict.set attrs "S_comb" (o.m * (o.s - o.sRef))) "S_Qcomb" = none := by
    induction attrs with
    | nil => simp [Dict.set, Dict.get?]
    | cons kv d ih =>
      obtain ⟨k, v⟩ := kv
      rw [Dict.get?] at h
      by_cases hk : "S_Qcomb" = k
      · rw [if_pos hk] at h; exact absurd h (by simp)
      · rw [if_neg hk] at h
        rw [Dict.set]
        split_ifs
        · rw [Dict.get?, if_neg hk]; exact h
        · rw [Dict.get?, if_neg hk]; exact ih h
  unfold chamberEnt
  rw [chamberLoop_missing inl hne _ this]

example : chamberEnt [gasStream 1 1 300, gasStream 1 1 300] (gasStream 2 1 2000) 1000 [] = .error .attributeError :=
  C107_chamber_false _ (by simp) _ _ _ rfl

end Tespy
