import Verif.Props.MovingBoundary
import Mathlib.MeasureTheory.Integral.IntervalIntegral.FundThmCalculus
import Mathlib.Analysis.SpecialFunctions.Log.Deriv
/-
C48, continued: the UA value of the moving boundary heat exchanger is the
integral of the heat divided by the local temperature difference, and its
pinch is the smallest difference anywhere, as long as the temperatures between
two borders of sections follow straight lines.
-/
namespace Tespy

open intervalIntegral

/-- Between neighbouring borders the function follows the straight line
through its values at the borders. -/
def Spec.StraightBetween (td : ℝ → ℝ) (borders : List ℝ) : Prop :=
  ∀ pre a b post, borders = pre ++ a :: b :: post → ∀ q, a ≤ q → q ≤ b →
    (b - a) * td q = (b - q) * td a + (q - a) * td b

/-- Between neighbouring borders the function is nowhere below the straight
line through its values at the borders. -/
def Spec.AboveChords (td : ℝ → ℝ) (borders : List ℝ) : Prop :=
  ∀ pre a b post, borders = pre ++ a :: b :: post → ∀ q, a ≤ q → q ≤ b →
    (b - q) * td a + (q - a) * td b ≤ (b - a) * td q

theorem Spec.StraightBetween.above {td : ℝ → ℝ} {l : List ℝ} (h : Spec.StraightBetween td l) :
    Spec.AboveChords td l :=
  fun pre a b post e q h1 h2 => (h pre a b post e q h1 h2).ge

theorem Spec.AboveChords.tail {td : ℝ → ℝ} {a : ℝ} {l : List ℝ} (h : Spec.AboveChords td (a :: l)) :
    Spec.AboveChords td l :=
  fun pre x y post e q h1 h2 => h (a :: pre) x y post (by rw [e]; rfl) q h1 h2

theorem Spec.StraightBetween.tail {td : ℝ → ℝ} {a : ℝ} {l : List ℝ}
    (h : Spec.StraightBetween td (a :: l)) : Spec.StraightBetween td l :=
  fun pre x y post e q h1 h2 => h (a :: pre) x y post (by rw [e]; rfl) q h1 h2

/-- The integral over one section with a straight temperature difference. -/
theorem integral_inv_straight {a b : ℝ} (hab : a < b) {td : ℝ → ℝ} (ha : 0 < td a) (hb : 0 < td b)
    (hs : ∀ q, a ≤ q → q ≤ b → (b - a) * td q = (b - q) * td a + (q - a) * td b) :
    IntervalIntegrable (fun q => 1 / td q) MeasureTheory.volume a b ∧
    ∫ q in a..b, 1 / td q = (b - a) / Spec.logMean (td b) (td a) := by
  have hba : 0 < b - a := by linarith
  set k := (td b - td a) / (b - a) with hk
  have hkba : k * (b - a) = td b - td a := by rw [hk]; field_simp
  have hlin : ∀ q, a ≤ q → q ≤ b → td q = td a + k * (q - a) := by
    intro q h1 h2
    have h3 := hs q h1 h2
    have : (b - a) * (td q - (td a + k * (q - a))) = 0 := by
      have e : (b - a) * (td q - (td a + k * (q - a))) =
        (b - a) * td q - (b - a) * td a - (k * (b - a)) * (q - a) := by ring
      rw [e, h3, hkba]; ring
    rcases mul_eq_zero.mp this with h | h
    · linarith
    · linarith
  have hpos : ∀ q ∈ Set.uIcc a b, 0 < td a + k * (q - a) := by
    intro q hq
    rw [Set.uIcc_of_le hab.le] at hq
    have h3 := hs q hq.1 hq.2
    have h4 : 0 < (b - a) * td q := by
      rw [h3]
      have h5 : 0 ≤ (b - q) * td a := mul_nonneg (by linarith [hq.2]) ha.le
      have h6 : 0 ≤ (q - a) * td b := mul_nonneg (by linarith [hq.1]) hb.le
      rcases hq.1.lt_or_eq with h | h
      · have : 0 < (q - a) * td b := mul_pos (by linarith) hb
        linarith
      · have : 0 < (b - q) * td a := mul_pos (by linarith) ha
        linarith
    rw [← hlin q hq.1 hq.2]
    exact pos_of_mul_pos_right h4 hba.le
  have hcont : ContinuousOn (fun q => 1 / (td a + k * (q - a))) (Set.uIcc a b) := by
    apply ContinuousOn.div continuousOn_const
    · fun_prop
    · intro q hq; exact (hpos q hq).ne'
  have hcongr : Set.EqOn (fun q => 1 / (td a + k * (q - a))) (fun q => 1 / td q) (Set.uIcc a b) := by
    intro q hq
    rw [Set.uIcc_of_le hab.le] at hq
    simp only
    rw [hlin q hq.1 hq.2]
  have hint : IntervalIntegrable (fun q => 1 / (td a + k * (q - a))) MeasureTheory.volume a b :=
    hcont.intervalIntegrable
  refine ⟨hint.congr (fun q hq => hcongr (Set.uIoc_subset_uIcc hq)), ?_⟩
  rw [← integral_congr hcongr]
  by_cases h0 : td b = td a
  · have hk0 : k = 0 := by rw [hk, h0]; simp
    have : (fun q => 1 / (td a + k * (q - a))) = fun _ => 1 / td a := by
      funext q; rw [hk0]; simp
    rw [this, integral_const, Spec.logMean, if_pos h0, h0, smul_eq_mul]
    ring
  · have hkne : k ≠ 0 := by
      rw [hk]; exact div_ne_zero (sub_ne_zero.mpr h0) hba.ne'
    have hderiv : ∀ q ∈ Set.uIcc a b,
        HasDerivAt (fun q => Real.log (td a + k * (q - a)) / k) (1 / (td a + k * (q - a))) q := by
      intro q hq
      have h1 : HasDerivAt (fun q => td a + k * (q - a)) k q := by
        have := (((hasDerivAt_id q).sub_const a).const_mul k).const_add (td a)
        simpa using this
      refine ((h1.log (hpos q hq).ne').div_const k).congr_deriv ?_
      field_simp
    rw [integral_eq_sub_of_hasDerivAt hderiv hint, Spec.logMean, if_neg h0]
    have e1 : td a + k * (b - a) = td b := by rw [hkba]; ring
    have e2 : td a + k * (a - a) = td a := by ring
    rw [e1, e2]
    have hlog : Real.log (td b) - Real.log (td a) ≠ 0 := by
      intro e
      exact h0 (Real.log_injOn_pos (Set.mem_Ioi.mpr hb) (Set.mem_Ioi.mpr ha) (by linarith))
    have hsub : td b - td a ≠ 0 := sub_ne_zero.mpr h0
    rw [hk]
    field_simp

theorem mbUA_integral {rnd td : ℝ → ℝ} : ∀ (qs : List ℝ),
    (∀ q ∈ qs, 0 < td q) → Spec.StraightBetween td qs → qs.Pairwise (· ≤ ·) →
    (∀ q ∈ qs, ∀ q' ∈ qs, rnd (td q) = rnd (td q') → td q = td q') →
    ∀ q0 qn, qs.head? = some q0 → qs.getLast? = some qn →
    mbUA rnd (qs.map td) qs = .ok (∫ q in q0..qn, 1 / td q) ∧
      IntervalIntegrable (fun q => 1 / td q) MeasureTheory.volume q0 qn
  | [], _, _, _, _, q0, qn, h0, _ => by cases h0
  | [q], _, _, _, _, q0, qn, h0, hn => by
    cases h0; cases hn
    exact ⟨by simp [mbUA], by simp⟩
  | a :: b :: qs, hp, hs, hsort, hr, q0, qn, h0, hn => by
    cases h0
    have hab : a ≤ b := List.rel_of_pairwise_cons hsort (by simp)
    have ha := hp a (by simp)
    have hb := hp b (by simp)
    obtain ⟨ih, ihi⟩ := mbUA_integral (rnd := rnd) (b :: qs) (fun q h => hp q (by simp [List.mem_cons.mp h]))
      hs.tail hsort.of_cons (fun q h q' h' => hr q (List.mem_cons_of_mem _ h) q' (List.mem_cons_of_mem _ h'))
      b qn rfl (by simpa using hn)
    have htd : mbSectionTd rnd (td a) (td b) = .ok (Spec.logMean (td b) (td a)) := by
      unfold mbSectionTd
      by_cases h : rnd (td b) ≠ rnd (td a)
      · rw [if_pos h, logQuot_pos hb ha (fun e => h (by rw [e]))]
      · rw [if_neg h]
        have e := hr b (by simp) a (by simp) (not_not.mp h)
        rw [Spec.logMean, if_pos e]
    have hlm : Spec.logMean (td b) (td a) ≠ 0 := (Spec.logMean_pos hb ha).ne'
    have hsec : IntervalIntegrable (fun q => 1 / td q) MeasureTheory.volume a b ∧
        ∫ q in a..b, 1 / td q = (b - a) / Spec.logMean (td b) (td a) := by
      rcases hab.lt_or_eq with h | h
      · exact integral_inv_straight h ha hb (hs [] a b qs rfl)
      · subst h; simp
    refine ⟨?_, hsec.1.trans ihi⟩
    rw [List.map_cons] at ih
    simp only [List.map_cons, mbUA, htd, rdiv_of_ne hlm, ih, abs_of_nonneg (sub_nonneg.2 hab)]
    rw [← integral_add_adjacent_intervals hsec.1 ihi, hsec.2]

/-- **UA is the integral of the heat over the local temperature difference.**
If the temperature difference between hot and cold stream is positive and
follows a straight line between the borders of the sections (constant heat
capacities or phase change in every section), and the rounding to six digits
only equates equal differences, the calculated UA is exactly
`∫ dQ / (T_hot - T_cold)` over the heat transferred. -/
theorem C48_UA_exact (rnd : ℝ → ℝ) (Th Tc : ℝ → ℝ → ℝ) (hot cold : MBSide) (Q : ℝ)
    (h : Spec.Balanced hot cold Q)
    (hpos : ∀ q ∈ mbSections hot cold, 0 < Spec.tdAt Th Tc hot cold q)
    (hlin : Spec.StraightBetween (Spec.tdAt Th Tc hot cold) (mbSections hot cold))
    (hrnd : ∀ q ∈ mbSections hot cold, ∀ q' ∈ mbSections hot cold,
      rnd (Spec.tdAt Th Tc hot cold q) = rnd (Spec.tdAt Th Tc hot cold q') →
        Spec.tdAt Th Tc hot cold q = Spec.tdAt Th Tc hot cold q') :
    mbCalcUA rnd Th Tc hot cold = .ok (∫ q in (0 : ℝ)..Q, 1 / Spec.tdAt Th Tc hot cold q) := by
  obtain ⟨hs, h0, hn, -⟩ := C48_sections hot cold Q h
  unfold mbCalcUA mbTHot mbTCold
  rw [mbTd_map, List.map_map]
  have e : (mbSections hot cold).map (abs ∘ fun q => Th hot.pin (hot.hout + q / hot.m)
      - Tc cold.pin (cold.hin + q / cold.m)) =
      (mbSections hot cold).map (Spec.tdAt Th Tc hot cold) := by
    apply List.map_congr_left
    intro q hq
    exact abs_of_pos (hpos q hq)
  rw [e]
  exact (mbUA_integral _ hpos hlin hs hrnd 0 Q h0 hn).1

theorem above_chords_min {td : ℝ → ℝ} {v : ℝ} : ∀ (qs : List ℝ), (∀ q ∈ qs, v ≤ td q) →
    Spec.AboveChords td qs → qs.Pairwise (· ≤ ·) →
    ∀ q0 qn, qs.head? = some q0 → qs.getLast? = some qn → ∀ q, q0 ≤ q → q ≤ qn → v ≤ td q
  | [], _, _, _, q0, qn, h0, _ => by cases h0
  | [x], hp, _, _, q0, qn, h0, hn => by
    cases h0; cases hn
    intro q h1 h2
    rw [le_antisymm h2 h1]
    exact hp x (by simp)
  | a :: b :: qs, hp, hs, hsort, q0, qn, h0, hn => by
    cases h0
    intro q h1 h2
    by_cases hqb : b ≤ q
    · exact above_chords_min (b :: qs) (fun x h => hp x (List.mem_cons_of_mem _ h)) hs.tail
        hsort.of_cons b qn rfl (by simpa using hn) q hqb h2
    · have hqb : q < b := not_le.mp hqb
      have := hs [] a b qs rfl q h1 hqb.le
      have ha := hp a (by simp)
      have hb := hp b (by simp)
      have h3 : (b - q) * v ≤ (b - q) * td a := mul_le_mul_of_nonneg_left ha (by linarith)
      have h4 : (q - a) * v ≤ (q - a) * td b := mul_le_mul_of_nonneg_left hb (by linarith)
      have h5 : (b - a) * v ≤ (b - a) * td q := by
        have e : (b - a) * v = (b - q) * v + (q - a) * v := by ring
        linarith
      exact le_of_mul_le_mul_left h5 (by linarith)

/-- **The pinch is the smallest temperature difference anywhere** along the
heat transferred, if the difference is nowhere below the straight lines
between the borders of the sections, and it is attained. -/
theorem C48_pinch_everywhere (Th Tc : ℝ → ℝ → ℝ) (hot cold : MBSide) (Q : ℝ)
    (h : Spec.Balanced hot cold Q)
    (hab : Spec.AboveChords (Spec.tdAt Th Tc hot cold) (mbSections hot cold)) :
    ∃ v, mbPinch Th Tc hot cold = .ok v ∧
      (∀ q, 0 ≤ q → q ≤ Q → v ≤ Spec.tdAt Th Tc hot cold q) ∧
      ∃ q, 0 ≤ q ∧ q ≤ Q ∧ v = Spec.tdAt Th Tc hot cold q := by
  obtain ⟨v, hv, hmin, q, hq, he⟩ := mbPinch_spec Th Tc hot cold Q h
  obtain ⟨hs, h0, hn, -⟩ := C48_sections hot cold Q h
  have hr := mbSections_range h q hq
  exact ⟨v, hv, above_chords_min _ hmin hab hs 0 Q h0 hn, q, hr.1, hr.2, he⟩

/-- **Solved equations mean what is specified**: with straight temperatures in
every section the equation of `UA` is solved exactly if the value specified is
the integral of the heat over the temperature difference, and that of
`td_pinch` exactly if it is the smallest temperature difference. -/
theorem C48_equations (rnd : ℝ → ℝ) (Th Tc : ℝ → ℝ → ℝ) (hot cold : MBSide) (Q v : ℝ)
    (h : Spec.Balanced hot cold Q)
    (hpos : ∀ q ∈ mbSections hot cold, 0 < Spec.tdAt Th Tc hot cold q)
    (hlin : Spec.StraightBetween (Spec.tdAt Th Tc hot cold) (mbSections hot cold))
    (hrnd : ∀ q ∈ mbSections hot cold, ∀ q' ∈ mbSections hot cold,
      rnd (Spec.tdAt Th Tc hot cold q) = rnd (Spec.tdAt Th Tc hot cold q') →
        Spec.tdAt Th Tc hot cold q = Spec.tdAt Th Tc hot cold q') :
    (mbUARes rnd Th Tc hot cold v = .ok 0 ↔
      v = ∫ q in (0 : ℝ)..Q, 1 / Spec.tdAt Th Tc hot cold q) ∧
    (mbPinchRes Th Tc hot cold v = .ok 0 ↔
      IsLeast (Spec.tdAt Th Tc hot cold '' Set.Icc 0 Q) v) := by
  constructor
  · unfold mbUARes
    rw [C48_UA_exact rnd Th Tc hot cold Q h hpos hlin hrnd]
    simp only [Except.ok.injEq, sub_eq_zero]
  · obtain ⟨w, hw, hmin, q, h1, h2, he⟩ := C48_pinch_everywhere Th Tc hot cold Q h hlin.above
    unfold mbPinchRes
    rw [hw]
    simp only [Except.ok.injEq, sub_eq_zero]
    have hl : IsLeast (Spec.tdAt Th Tc hot cold '' Set.Icc 0 Q) w := by
      refine ⟨⟨q, ⟨h1, h2⟩, he.symm⟩, ?_⟩
      rintro _ ⟨x, hx, rfl⟩
      exact hmin x hx.1 hx.2
    constructor
    · rintro rfl; exact hl
    · intro hv; exact hv.unique hl

/-- **Curved temperatures inside a section** (refutation): without phase
change there are no inner borders, and a smaller, even negative, temperature
difference inside the section is missed.  Here the cold stream has a
temperature rising fast at first (a heat capacity growing with temperature),
the reported pinch is 10 K, in the middle the hot stream is colder by 15 K. -/
theorem C48_pinch_inside_false :
    ∃ (Th Tc : ℝ → ℝ → ℝ) (hot cold : MBSide) (Q q : ℝ), Spec.Balanced hot cold Q ∧
      (∀ p, StrictMonoOn (Th p) (Set.Icc 0 100)) ∧ (∀ p, StrictMonoOn (Tc p) (Set.Icc 0 100)) ∧
      mbPinch Th Tc hot cold = .ok 10 ∧ 0 ≤ q ∧ q ≤ Q ∧ Spec.tdAt Th Tc hot cold q = -15 := by
  have hb : Spec.Balanced ⟨100, 0, 1, 1, 1, none⟩ ⟨0, 100, 1, 1, 1, none⟩ 100 := by
    constructor <;> first
      | (norm_num; done)
      | (intro hl hg h; cases h)
  refine ⟨fun _ h => 310 + h, fun _ h => 300 + h + h * (100 - h) / 100, _, _, 100, 50, hb, ?_, ?_, ?_,
    by norm_num, by norm_num, ?_⟩
  · intro p x _ y _ hxy
    simp only
    linarith
  · intro p x hx y hy hxy
    simp only
    have h1 : 0 < (y - x) * (200 - x - y) := by
      apply mul_pos (by linarith)
      have := hy.2
      linarith
    nlinarith
  · obtain ⟨v, hv, -, q, hq, he⟩ := mbPinch_spec (fun _ h => 310 + h)
      (fun _ h => 300 + h + h * (100 - h) / 100) _ _ _ hb
    rw [hv]
    congr 1
    have hmem : q = 0 ∨ q = 100 := by
      rcases (C48_sections _ _ _ hb).2.2.2.2.2 q hq with h | h | ⟨x, hx, -⟩ | ⟨x, hx, -⟩
      · exact .inl h
      · exact .inr h
      · simp [Spec.satEnthalpy] at hx
      · simp [Spec.satEnthalpy] at hx
    rw [he]
    rcases hmem with rfl | rfl <;> norm_num [Spec.tdAt]
  · norm_num [Spec.tdAt]

/-- The hypotheses of `C48_UA_exact` are met by the example with phase changes
on both sides and temperatures rising with the enthalpy. -/
example : mbCalcUA (fun x => x) (fun _ h => 310 + h / 2) (fun _ h => 250 + h / 2) exMBHot exMBCold
    = .ok (∫ q in (0 : ℝ)..1800, 1 / Spec.tdAt (fun _ h => 310 + h / 2) (fun _ h => 250 + h / 2)
        exMBHot exMBCold q) := by
  refine C48_UA_exact _ _ _ _ _ _ exMB_balanced ?_ ?_ (fun _ _ _ _ e => e)
  · intro q hq
    have := mbSections_range exMB_balanced q hq
    unfold Spec.tdAt
    simp only [exMBHot, exMBCold]
    linarith [this.1, this.2]
  · intro pre a b post _ q _ _
    unfold Spec.tdAt
    simp only [exMBHot, exMBCold]
    ring

end Tespy
