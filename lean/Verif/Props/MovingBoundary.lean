import Verif.Model.MovingBoundary
import Verif.Props.Reported

/-!
C48: sections, pinch and UA of the moving boundary heat exchanger.
-/
namespace Tespy

/-- Specification: `h` is one of the saturation enthalpies of the side. -/
def Spec.satEnthalpy (s : MBSide) (h : ℝ) : Prop :=
  ∃ hl hg, s.sat = some (hl, hg) ∧ (h = hl ∨ h = hg)

/-- A side whose fluid data are physical: boiling enthalpy not above dew enthalpy. -/
def Spec.satOrdered (s : MBSide) : Prop := ∀ hl hg, s.sat = some (hl, hg) → hl ≤ hg

theorem cumsumFrom_sections (m : ℝ) (a acc : ℝ) (l : List ℝ) :
    cumsumFrom acc (mbQSections m (a :: l)) = l.map (fun h => acc + (h - a) * m) := by
  induction l generalizing a acc with
  | nil => rfl
  | cons b l ih =>
    simp only [mbQSections, cumsumFrom, List.map_cons]
    rw [ih]
    congr 1
    apply List.map_congr_left
    intro h _
    ring

/-- The enthalpy steps: lower enthalpy, some saturation enthalpies strictly in between, upper
enthalpy; a saturation enthalpy more than 1e-6 inside is among them. -/
theorem mbStepsSorted_shape (h1 h2 : ℝ) (sat : Option (ℝ × ℝ))
    (hs : ∀ hl hg, sat = some (hl, hg) → hl ≤ hg) :
    ∃ mid, mbStepsSorted h1 h2 sat = h1 :: (mid ++ [h2]) ∧
      (∀ h ∈ mid, h1 < h ∧ h < h2 ∧ ∃ hl hg, sat = some (hl, hg) ∧ (h = hl ∨ h = hg)) ∧
      (∀ hl hg h, sat = some (hl, hg) → (h = hl ∨ h = hg) → h1 + mbERR < h → h + mbERR < h2 →
        h ∈ mid) := by
  have hE : (0 : ℝ) < mbERR := by norm_num [mbERR]
  unfold mbStepsSorted
  cases sat with
  | none => exact ⟨[], rfl, by simp, by simp⟩
  | some x =>
    obtain ⟨hl, hg⟩ := x
    have hlg := hs hl hg rfl
    simp only
    by_cases c1 : h1 < hl
    · rw [if_pos c1]
      by_cases c2 : h2 > hg + mbERR
      · rw [if_pos c2]
        refine ⟨[hl, hg], rfl, ?_, ?_⟩
        · intro h hh
          simp only [List.mem_cons, List.not_mem_nil, or_false] at hh
          rcases hh with rfl | rfl
          · exact ⟨c1, by linarith, _, _, rfl, .inl rfl⟩
          · exact ⟨by linarith, by linarith, _, _, rfl, .inr rfl⟩
        · intro hl' hg' h he hh _ _
          obtain ⟨rfl, rfl⟩ := Prod.mk.inj (Option.some.inj he)
          simpa using hh
      · rw [if_neg c2]
        by_cases c3 : h2 > hl + mbERR
        · rw [if_pos c3]
          refine ⟨[hl], rfl, ?_, ?_⟩
          · intro h hh
            simp only [List.mem_singleton] at hh
            subst hh
            exact ⟨c1, by linarith, _, _, rfl, .inl rfl⟩
          · intro hl' hg' h he hh _ h4
            obtain ⟨rfl, rfl⟩ := Prod.mk.inj (Option.some.inj he)
            rcases hh with rfl | rfl
            · simp
            · exact absurd h4 c2
        · rw [if_neg c3]
          refine ⟨[], rfl, by simp, ?_⟩
          intro hl' hg' h he hh _ h4
          obtain ⟨rfl, rfl⟩ := Prod.mk.inj (Option.some.inj he)
          rcases hh with rfl | rfl
          · exact absurd h4 c3
          · exact absurd h4 c2
    · rw [if_neg c1]
      by_cases c2 : h1 < hg - mbERR
      · rw [if_pos c2]
        by_cases c3 : h2 > hg + mbERR
        · rw [if_pos c3]
          refine ⟨[hg], rfl, ?_, ?_⟩
          · intro h hh
            simp only [List.mem_singleton] at hh
            subst hh
            exact ⟨by linarith, by linarith, _, _, rfl, .inr rfl⟩
          · intro hl' hg' h he hh h3 _
            obtain ⟨rfl, rfl⟩ := Prod.mk.inj (Option.some.inj he)
            rcases hh with rfl | rfl
            · exact absurd (by linarith) c1
            · simp
        · rw [if_neg c3]
          refine ⟨[], rfl, by simp, ?_⟩
          intro hl' hg' h he hh h3 h4
          obtain ⟨rfl, rfl⟩ := Prod.mk.inj (Option.some.inj he)
          rcases hh with rfl | rfl
          · exact absurd (by linarith) c1
          · exact absurd h4 c3
      · rw [if_neg c2]
        refine ⟨[], rfl, by simp, ?_⟩
        intro hl' hg' h he hh h3 _
        obtain ⟨rfl, rfl⟩ := Prod.mk.inj (Option.some.inj he)
        rcases hh with rfl | rfl
        · exact absurd (by linarith) c1
        · exact absurd (by linarith) c2

/-- Heat transfer from the hot to the cold side with closed energy balance: positive mass flows,
the hot side is cooled, the cold side heated, both heat flows are `Q`. -/
structure Spec.Balanced (hot cold : MBSide) (Q : ℝ) : Prop where
  mh : 0 < hot.m
  mc : 0 < cold.m
  cooled : hot.hout ≤ hot.hin
  heated : cold.hin ≤ cold.hout
  qh : hot.m * (hot.hin - hot.hout) = Q
  qc : cold.m * (cold.hout - cold.hin) = Q
  oh : Spec.satOrdered hot
  oc : Spec.satOrdered cold

theorem mbSteps_hot {hot cold : MBSide} {Q : ℝ} (h : Spec.Balanced hot cold Q) :
    mbSteps hot = mbStepsSorted hot.hout hot.hin hot.sat := by
  unfold mbSteps
  by_cases hc : hot.hin > hot.hout
  · rw [if_pos hc]
  · rw [if_neg hc, le_antisymm (not_lt.1 hc) h.cooled]

theorem mbSteps_cold {hot cold : MBSide} {Q : ℝ} (h : Spec.Balanced hot cold Q) :
    mbSteps cold = mbStepsSorted cold.hin cold.hout cold.sat := by
  unfold mbSteps
  rw [if_neg (not_lt.2 h.heated)]

/-- Which heat flows are section borders. -/
theorem mem_mbSections {hot cold : MBSide} {Q : ℝ} (h : Spec.Balanced hot cold Q) :
    ∃ midH midC : List ℝ,
      (∀ q, q ∈ mbSections hot cold ↔
        q = 0 ∨ q = Q ∨ (∃ x ∈ midH, q = (x - hot.hout) * hot.m) ∨
          (∃ x ∈ midC, q = (x - cold.hin) * cold.m)) ∧
      (∀ x ∈ midH, hot.hout < x ∧ x < hot.hin ∧ Spec.satEnthalpy hot x) ∧
      (∀ x ∈ midC, cold.hin < x ∧ x < cold.hout ∧ Spec.satEnthalpy cold x) ∧
      (∀ x, Spec.satEnthalpy hot x → hot.hout + mbERR < x → x + mbERR < hot.hin → x ∈ midH) ∧
      (∀ x, Spec.satEnthalpy cold x → cold.hin + mbERR < x → x + mbERR < cold.hout →
        x ∈ midC) := by
  obtain ⟨midH, eH, inH, allH⟩ := mbStepsSorted_shape hot.hout hot.hin hot.sat h.oh
  obtain ⟨midC, eC, inC, allC⟩ := mbStepsSorted_shape cold.hin cold.hout cold.sat h.oc
  refine ⟨midH, midC, ?_, fun x hx => inH x hx, fun x hx => inC x hx, ?_, ?_⟩
  · intro q
    unfold mbSections mbCold mbHot
    rw [List.mem_insertionSort, mbSteps_hot h, mbSteps_cold h, eH, eC, cumsumFrom_sections,
      cumsumFrom_sections]
    simp only [List.map_append, List.map_cons, List.map_nil, List.mem_append, List.mem_map,
      List.mem_cons, List.not_mem_nil, or_false, zero_add]
    have e : (midH.map (fun x => (x - hot.hout) * hot.m) ++ [(hot.hin - hot.hout) * hot.m]).dropLast
        = midH.map (fun x => (x - hot.hout) * hot.m) := by
      rw [List.dropLast_concat]
    rw [e, List.mem_map, mul_comm (cold.hout - cold.hin), h.qc]
    constructor
    · rintro ((⟨x, hx, rfl⟩ | rfl) | rfl | ⟨x, hx, rfl⟩)
      · exact .inr (.inr (.inr ⟨x, hx, rfl⟩))
      · exact .inr (.inl rfl)
      · exact .inl rfl
      · exact .inr (.inr (.inl ⟨x, hx, rfl⟩))
    · rintro (rfl | rfl | ⟨x, hx, rfl⟩ | ⟨x, hx, rfl⟩)
      · exact .inr (.inl rfl)
      · exact .inl (.inr rfl)
      · exact .inr (.inr ⟨x, hx, rfl⟩)
      · exact .inl (.inl ⟨x, hx, rfl⟩)
  · rintro x ⟨hl, hg, hs, hx⟩ h1 h2
    exact allH hl hg x hs hx h1 h2
  · rintro x ⟨hl, hg, hs, hx⟩ h1 h2
    exact allC hl hg x hs hx h1 h2

/-- All section borders lie between zero and the total heat. -/
theorem mbSections_range {hot cold : MBSide} {Q : ℝ} (h : Spec.Balanced hot cold Q) :
    ∀ q ∈ mbSections hot cold, 0 ≤ q ∧ q ≤ Q := by
  obtain ⟨midH, midC, hm, inH, inC, -⟩ := mem_mbSections h
  have hQ : 0 ≤ Q := by
    rw [← h.qh]; exact mul_nonneg h.mh.le (by linarith [h.cooled])
  intro q hq
  rcases (hm q).1 hq with rfl | rfl | ⟨x, hx, rfl⟩ | ⟨x, hx, rfl⟩
  · exact ⟨le_refl _, hQ⟩
  · exact ⟨hQ, le_refl _⟩
  · obtain ⟨h1, h2, -⟩ := inH x hx
    refine ⟨mul_nonneg (by linarith) h.mh.le, ?_⟩
    rw [← h.qh, mul_comm]
    exact mul_le_mul_of_nonneg_left (by linarith) h.mh.le
  · obtain ⟨h1, h2, -⟩ := inC x hx
    refine ⟨mul_nonneg (by linarith) h.mc.le, ?_⟩
    rw [← h.qc, mul_comm]
    exact mul_le_mul_of_nonneg_left (by linarith) h.mc.le

/-- C48: the section borders are sorted, the first one is zero, the last one the total heat, every
saturation enthalpy passed on one of the sides (more than 1e-6 J/kg away from the ends) is a
border, and there are no other borders. -/
theorem C48_sections (hot cold : MBSide) (Q : ℝ) (h : Spec.Balanced hot cold Q) :
    (mbSections hot cold).Pairwise (· ≤ ·) ∧
    (mbSections hot cold).head? = some 0 ∧
    (mbSections hot cold).getLast? = some Q ∧
    (∀ x, Spec.satEnthalpy hot x → hot.hout + 1e-6 < x → x + 1e-6 < hot.hin →
      hot.m * (x - hot.hout) ∈ mbSections hot cold) ∧
    (∀ x, Spec.satEnthalpy cold x → cold.hin + 1e-6 < x → x + 1e-6 < cold.hout →
      cold.m * (x - cold.hin) ∈ mbSections hot cold) ∧
    (∀ q ∈ mbSections hot cold, q = 0 ∨ q = Q ∨
      (∃ x, Spec.satEnthalpy hot x ∧ q = hot.m * (x - hot.hout)) ∨
      (∃ x, Spec.satEnthalpy cold x ∧ q = cold.m * (x - cold.hin))) := by
  obtain ⟨midH, midC, hm, inH, inC, allH, allC⟩ := mem_mbSections h
  have hr := mbSections_range h
  have hsort : (mbSections hot cold).Pairwise (· ≤ ·) :=
    List.pairwise_insertionSort (r := (· ≤ ·)) _
  have h0 : (0 : ℝ) ∈ mbSections hot cold := (hm 0).2 (.inl rfl)
  have hQ : Q ∈ mbSections hot cold := (hm Q).2 (.inr (.inl rfl))
  have hE : (1e-6 : ℝ) = mbERR := by norm_num [mbERR]
  rw [hE]
  refine ⟨hsort, ?_, ?_, ?_, ?_, ?_⟩
  · cases hl : mbSections hot cold with
    | nil => rw [hl] at h0; simp at h0
    | cons a l =>
      rw [hl] at hsort h0 hr
      have ha := hr a (by simp)
      have : a ≤ 0 := by
        rcases List.mem_cons.1 h0 with h | h
        · exact h.ge
        · exact List.rel_of_pairwise_cons hsort h
      simp [le_antisymm this ha.1]
  · have hne : mbSections hot cold ≠ [] := List.ne_nil_of_mem h0
    rw [List.getLast?_eq_getLast_of_ne_nil hne]
    congr 1
    apply le_antisymm
    · exact (hr _ (List.getLast_mem hne)).2
    · have e := List.dropLast_append_getLast hne
      rw [← e] at hQ hsort
      rcases List.mem_append.1 hQ with h | h
      · exact (List.pairwise_append.1 hsort).2.2 _ h _ (by simp)
      · rw [List.mem_singleton] at h; exact h.le
  · intro x hx h1 h2
    exact (hm _).2 (.inr (.inr (.inl ⟨x, allH x hx h1 h2, mul_comm _ _⟩)))
  · intro x hx h1 h2
    exact (hm _).2 (.inr (.inr (.inr ⟨x, allC x hx h1 h2, mul_comm _ _⟩)))
  · intro q hq
    rcases (hm q).1 hq with rfl | rfl | ⟨x, hx, rfl⟩ | ⟨x, hx, rfl⟩
    · exact .inl rfl
    · exact .inr (.inl rfl)
    · exact .inr (.inr (.inl ⟨x, (inH x hx).2.2, mul_comm _ _⟩))
    · exact .inr (.inr (.inr ⟨x, (inC x hx).2.2, mul_comm _ _⟩))

/-- A condensing hot side (100 → 1000, dew point 900, bubble point 400) against an evaporating
cold side with twice the mass flow. -/
noncomputable def exMBHot : MBSide := ⟨1000, 100, 2, 5, 5, some (400, 900)⟩
/-- The cold side, bubble point 300, dew point 2000. -/
noncomputable def exMBCold : MBSide := ⟨100, 550, 4, 1, 1, some (300, 2000)⟩

/-- Non-trivial case: the example is balanced with Q = 1800. -/
theorem exMB_balanced : Spec.Balanced exMBHot exMBCold 1800 := by
  constructor <;> first
    | (norm_num [exMBHot, exMBCold]; done)
    | (intro hl hg h
       simp only [exMBHot, exMBCold, Option.some.injEq, Prod.mk.injEq] at h
       obtain ⟨rfl, rfl⟩ := h
       norm_num)

/-- The borders at phase changes of the example: 600 and 1600 on the hot side, 800 on the cold. -/
example : (600 : ℝ) ∈ mbSections exMBHot exMBCold ∧ (1600 : ℝ) ∈ mbSections exMBHot exMBCold ∧
    (800 : ℝ) ∈ mbSections exMBHot exMBCold := by
  obtain ⟨-, -, -, hh, hc, -⟩ := C48_sections _ _ _ exMB_balanced
  refine ⟨?_, ?_, ?_⟩
  · have := hh 400 ⟨_, _, rfl, .inl rfl⟩ (by norm_num [exMBHot]) (by norm_num [exMBHot])
    norm_num [exMBHot] at this ⊢; exact this
  · have := hh 900 ⟨_, _, rfl, .inr rfl⟩ (by norm_num [exMBHot]) (by norm_num [exMBHot])
    norm_num [exMBHot] at this ⊢; exact this
  · have := hc 300 ⟨_, _, rfl, .inl rfl⟩ (by norm_num [exMBCold]) (by norm_num [exMBCold])
    norm_num [exMBCold] at this ⊢; exact this

/-! ### Pinch -/

theorem foldl_min_spec (l : List ℝ) (a : ℝ) :
    l.foldl min a ≤ a ∧ (∀ x ∈ l, l.foldl min a ≤ x) ∧ (l.foldl min a = a ∨ l.foldl min a ∈ l) := by
  induction l generalizing a with
  | nil => simp
  | cons b l ih =>
    obtain ⟨h1, h2, h3⟩ := ih (min a b)
    simp only [List.foldl_cons, List.mem_cons]
    refine ⟨h1.trans (min_le_left _ _), ?_, ?_⟩
    · rintro x (rfl | hx)
      · exact h1.trans (min_le_right _ _)
      · exact h2 x hx
    · rcases h3 with h | h
      · rw [h]
        rcases min_choice a b with h | h
        · exact .inl h
        · exact .inr (.inl h)
      · exact .inr (.inr h)

theorem pyMin_spec {l : List ℝ} {v : ℝ} (h : pyMin l = .ok v) : v ∈ l ∧ ∀ x ∈ l, v ≤ x := by
  cases l with
  | nil => cases h
  | cons a l =>
    have := Except.ok.inj h
    subst this
    obtain ⟨h1, h2, h3⟩ := foldl_min_spec l a
    refine ⟨by rcases h3 with h | h <;> simp [h], ?_⟩
    intro x hx
    rcases List.mem_cons.1 hx with rfl | hx
    · exact h1
    · exact h2 x hx

theorem mbTd_map (f g : ℝ → ℝ) (l : List ℝ) :
    mbTd (l.map f) (l.map g) = l.map (fun q => f q - g q) := by
  induction l with
  | nil => rfl
  | cons a l ih => simpa [mbTd] using ih

/-- The temperature difference between the sides where the heat `q` has been transferred, counted
from the cold end: enthalpies follow from the energy balance, pressures are constant. -/
noncomputable def Spec.tdAt (Th Tc : ℝ → ℝ → ℝ) (hot cold : MBSide) (q : ℝ) : ℝ :=
  Th hot.pin (hot.hout + q / hot.m) - Tc cold.pin (cold.hin + q / cold.m)

theorem mbPinch_spec (Th Tc : ℝ → ℝ → ℝ) (hot cold : MBSide) (Q : ℝ)
    (h : Spec.Balanced hot cold Q) :
    ∃ v, mbPinch Th Tc hot cold = .ok v ∧
      (∀ q ∈ mbSections hot cold, v ≤ Spec.tdAt Th Tc hot cold q) ∧
      ∃ q ∈ mbSections hot cold, v = Spec.tdAt Th Tc hot cold q := by
  have hne : mbSections hot cold ≠ [] := by
    intro hn
    have := (C48_sections _ _ _ h).2.1
    rw [hn] at this; cases this
  unfold mbPinch mbTHot mbTCold
  rw [mbTd_map]
  cases hl : (mbSections hot cold).map (fun q => Th hot.pin (hot.hout + q / hot.m)
    - Tc cold.pin (cold.hin + q / cold.m)) with
  | nil => exact absurd (List.map_eq_nil_iff.1 hl) hne
  | cons a l =>
    obtain ⟨h1, h2⟩ := pyMin_spec (l := a :: l) (v := l.foldl min a) rfl
    refine ⟨_, rfl, ?_, ?_⟩
    · intro q hq
      apply h2
      rw [← hl]
      exact List.mem_map.2 ⟨q, hq, rfl⟩
    · rw [← hl] at h1
      obtain ⟨q, hq, e⟩ := List.mem_map.1 h1
      exact ⟨q, hq, e.symm⟩

/-- C48, pinch: it is the smallest temperature difference at any section border, i.e. also at
every phase change, and without pressure losses it does not exceed the terminal temperature
differences `ttd_u` and `ttd_l`. -/
theorem C48_pinch_partial (Th Tc : ℝ → ℝ → ℝ) (hot cold : MBSide) (Q : ℝ)
    (h : Spec.Balanced hot cold Q) (hph : hot.pout = hot.pin) (hpc : cold.pout = cold.pin) :
    ∃ v, mbPinch Th Tc hot cold = .ok v ∧
      v ≤ Th hot.pin hot.hin - Tc cold.pout cold.hout ∧
      v ≤ Th hot.pout hot.hout - Tc cold.pin cold.hin ∧
      (∀ x, Spec.satEnthalpy hot x → hot.hout + 1e-6 < x → x + 1e-6 < hot.hin →
        v ≤ Th hot.pin x - Tc cold.pin (cold.hin + hot.m * (x - hot.hout) / cold.m)) ∧
      (∀ x, Spec.satEnthalpy cold x → cold.hin + 1e-6 < x → x + 1e-6 < cold.hout →
        v ≤ Th hot.pin (hot.hout + cold.m * (x - cold.hin) / hot.m) - Tc cold.pin x) := by
  obtain ⟨v, hv, hall, -⟩ := mbPinch_spec Th Tc hot cold Q h
  obtain ⟨midH, midC, hm, -⟩ := mem_mbSections h
  obtain ⟨-, -, -, hH, hC, -⟩ := C48_sections hot cold Q h
  have hmh := h.mh.ne'
  have hmc := h.mc.ne'
  refine ⟨v, hv, ?_, ?_, ?_, ?_⟩
  · have := hall Q ((hm Q).2 (.inr (.inl rfl)))
    unfold Spec.tdAt at this
    have e1 : hot.hout + Q / hot.m = hot.hin := by rw [← h.qh]; field_simp; ring
    have e2 : cold.hin + Q / cold.m = cold.hout := by rw [← h.qc]; field_simp; ring
    rw [e1, e2] at this
    rw [hpc]; exact this
  · have := hall 0 ((hm 0).2 (.inl rfl))
    unfold Spec.tdAt at this
    simpa [hph] using this
  · intro x hx h1 h2
    have := hall _ (hH x hx h1 h2)
    unfold Spec.tdAt at this
    have e1 : hot.hout + hot.m * (x - hot.hout) / hot.m = x := by field_simp; ring
    rw [e1] at this
    exact this
  · intro x hx h1 h2
    have := hall _ (hC x hx h1 h2)
    unfold Spec.tdAt at this
    have e1 : cold.hin + cold.m * (x - cold.hin) / cold.m = x := by field_simp; ring
    rw [e1] at this
    exact this

/-- With a pressure loss the pinch can exceed the terminal difference: the outlet temperature of the
hot side is evaluated at the pressure of its inlet. Here a condensing fluid (temperature given by
the pressure alone) leaves the exchanger 2 K above the cold inlet, the pinch is 4 K. -/
theorem C48_pinch_false :
    ∃ (Th Tc : ℝ → ℝ → ℝ) (hot cold : MBSide) (Q v : ℝ), Spec.Balanced hot cold Q ∧
      mbPinch Th Tc hot cold = .ok v ∧
      ¬ v ≤ Th hot.pout hot.hout - Tc cold.pin cold.hin := by
  refine ⟨fun p _ => p, fun _ _ => 300, ⟨1000, 100, 1, 304, 302, none⟩,
    ⟨100, 1000, 1, 1, 1, none⟩, 900, ?_⟩
  have hb : Spec.Balanced ⟨1000, 100, 1, 304, 302, none⟩ ⟨100, 1000, 1, 1, 1, none⟩ 900 := by
    constructor <;> first
      | (norm_num; done)
      | (intro hl hg h; cases h)
  obtain ⟨v, hv, -, q, -, he⟩ := mbPinch_spec (fun p _ => p) (fun _ _ => 300) _ _ _ hb
  refine ⟨v, hb, hv, ?_⟩
  rw [he]
  norm_num [Spec.tdAt]

/-! ### UA -/

theorem mbSectionTd_between (rnd : ℝ → ℝ) {a b : ℝ} (ha : 0 < a) (hb : 0 < b) :
    ∃ td, mbSectionTd rnd a b = .ok td ∧ 0 < td ∧ min a b ≤ td ∧ td ≤ max a b := by
  unfold mbSectionTd
  by_cases h : rnd b ≠ rnd a
  · have hne : b ≠ a := fun e => h (by rw [e])
    rw [if_pos h, logQuot_pos hb ha hne, Spec.logMean_comm]
    have := Spec.logMean_between ha hb
    exact ⟨_, rfl, Spec.logMean_pos ha hb, this.1, this.2⟩
  · rw [if_neg h]
    exact ⟨b, rfl, hb, min_le_right _ _, le_max_right _ _⟩

theorem mbUA_bounds (rnd : ℝ → ℝ) (lo hi : ℝ) (hlo : 0 < lo) :
    ∀ (tds qs : List ℝ), tds.length = qs.length → (∀ t ∈ tds, lo ≤ t ∧ t ≤ hi) →
      qs.Pairwise (· ≤ ·) → ∀ q0 qn, qs.head? = some q0 → qs.getLast? = some qn →
      ∃ ua, mbUA rnd tds qs = .ok ua ∧ (qn - q0) / hi ≤ ua ∧ ua ≤ (qn - q0) / lo
  | [], [], _, _, _, q0, qn, h0, _ => by cases h0
  | [a], [q], _, _, _, q0, qn, h0, hn => by
    cases h0; cases hn
    exact ⟨0, rfl, by simp, by simp⟩
  | a :: b :: tds, q1 :: q2 :: qs, hlen, ht, hs, q0, qn, h0, hn => by
    cases h0
    have ha := ht a (by simp)
    have hb := ht b (by simp)
    have ha0 : 0 < a := by linarith [ha.1]
    have hb0 : 0 < b := by linarith [hb.1]
    have hhi : 0 < hi := by linarith [ha.2]
    obtain ⟨td, htd, hpos, hmin, hmax⟩ := mbSectionTd_between rnd ha0 hb0
    have h12 : q1 ≤ q2 := List.rel_of_pairwise_cons hs (by simp)
    obtain ⟨ua, hua, hl, hu⟩ := mbUA_bounds rnd lo hi hlo (b :: tds) (q2 :: qs)
      (by simpa using hlen) (fun t h => ht t (List.mem_cons_of_mem _ h)) hs.of_cons q2 qn rfl
      (by simpa using hn)
    refine ⟨(q2 - q1) / td + ua, ?_, ?_, ?_⟩
    · simp only [mbUA, htd, rdiv_of_ne hpos.ne', hua, abs_of_nonneg (sub_nonneg.2 h12)]
    · have : (q2 - q1) / hi ≤ (q2 - q1) / td :=
        div_le_div_of_nonneg_left (by linarith) hpos (hmax.trans (max_le ha.2 hb.2))
      have e : (qn - q1) / hi = (q2 - q1) / hi + (qn - q2) / hi := by ring
      linarith
    · have : (q2 - q1) / td ≤ (q2 - q1) / lo :=
        div_le_div_of_nonneg_left (by linarith) hlo ((le_min ha.1 hb.1).trans hmin)
      have e : (qn - q1) / lo = (q2 - q1) / lo + (qn - q2) / lo := by ring
      linarith
  | [], _ :: _, hl, _, _, _, _, _, _ => by simp at hl
  | _ :: _, [], hl, _, _, _, _, _, _ => by simp at hl
  | [_], _ :: _ :: _, hl, _, _, _, _, _, _ => by simp at hl
  | _ :: _ :: _, [_], hl, _, _, _, _, _, _ => by simp at hl

/-- C48, UA: if the temperature differences at all borders lie between `lo > 0` and `hi`, UA is
defined and lies between `Q / hi` and `Q / lo`; whatever the rounding function does. -/
theorem C48_UA_bounds (rnd : ℝ → ℝ) (Th Tc : ℝ → ℝ → ℝ) (hot cold : MBSide) (Q lo hi : ℝ)
    (h : Spec.Balanced hot cold Q) (hlo : 0 < lo)
    (hb : ∀ q ∈ mbSections hot cold,
      lo ≤ Spec.tdAt Th Tc hot cold q ∧ Spec.tdAt Th Tc hot cold q ≤ hi) :
    ∃ ua, mbCalcUA rnd Th Tc hot cold = .ok ua ∧ Q / hi ≤ ua ∧ ua ≤ Q / lo := by
  obtain ⟨hs, h0, hn, -⟩ := C48_sections hot cold Q h
  unfold mbCalcUA mbTHot mbTCold
  rw [mbTd_map, List.map_map]
  have := mbUA_bounds rnd lo hi hlo
    ((mbSections hot cold).map (abs ∘ fun q => Th hot.pin (hot.hout + q / hot.m)
      - Tc cold.pin (cold.hin + q / cold.m))) (mbSections hot cold) (by simp) ?_ hs 0 Q h0 hn
  · simpa using this
  · intro t ht
    obtain ⟨q, hq, rfl⟩ := List.mem_map.1 ht
    have := hb q hq
    unfold Spec.tdAt at this
    simp only [Function.comp]
    rw [abs_of_pos (by linarith [this.1])]
    exact this

/-- Non-trivial case of `C48_UA_bounds`: temperatures rising with the enthalpy on both sides,
between 10 K and 1000 K apart. -/
example : ∃ ua, mbCalcUA (fun x => x) (fun _ h => 310 + h / 2) (fun _ h => 250 + h / 2)
    exMBHot exMBCold = .ok ua ∧ 1800 / 1000 ≤ ua ∧ ua ≤ 1800 / 10 := by
  refine C48_UA_bounds _ _ _ _ _ _ _ _ exMB_balanced (by norm_num) ?_
  intro q hq
  have := mbSections_range exMB_balanced q hq
  unfold Spec.tdAt
  simp only [exMBHot, exMBCold]
  constructor <;> linarith [this.1, this.2]

/-- The absolute value in `_calc_UA_in_sections` hides crossing temperatures: two sides whose
temperatures cross inside a section still get a finite positive UA, although the pinch is
negative. -/
theorem C48_UA_crossing :
    mbUA (fun x => x) ([10, -10].map abs) [0, 100] = .ok 10 ∧ pyMin [10, -10] = .ok (-10) := by
  constructor
  · norm_num [mbUA, mbSectionTd, rdiv]
  · norm_num [pyMin]

end Tespy
