import Verif.Props.MovingBoundary

/-!
C48: the moving boundary heat exchanger when heat flows the other way, from the second to the first stream.
-/
namespace Tespy

/-- The first stream is heated, the second one is cooled, by the heat `Q`. -/
structure Spec.Reversed (hot cold : MBSide) (Q : ℝ) : Prop where
  mh : 0 < hot.m
  mc : 0 < cold.m
  heated : hot.hin < hot.hout
  cooled : cold.hout < cold.hin
  qh : hot.m * (hot.hout - hot.hin) = Q
  qc : cold.m * (cold.hin - cold.hout) = Q
  oh : Spec.satOrdered hot
  oc : Spec.satOrdered cold

/-- An enthalpy the stream has between its inlet and its outlet. -/
def Spec.InSide (s : MBSide) (h : ℝ) : Prop := min s.hin s.hout ≤ h ∧ h ≤ max s.hin s.hout

/-- Inlet and outlet exchanged. -/
def mbTurn (s : MBSide) : MBSide := { s with hin := s.hout, hout := s.hin }

theorem mbSteps_turn (s : MBSide) : mbSteps (mbTurn s) = mbSteps s := by
  unfold mbSteps mbTurn
  simp only
  rcases lt_trichotomy s.hin s.hout with h | h | h
  · rw [if_pos h, if_neg (not_lt.2 h.le)]
  · rw [h]
  · rw [if_neg (not_lt.2 h.le), if_pos h]

theorem mbSections_turn (hot cold : MBSide) : mbSections (mbTurn hot) (mbTurn cold) = mbSections hot cold := by
  unfold mbSections mbHot mbCold
  rw [mbSteps_turn, mbSteps_turn]
  rfl

theorem reversed_turn {hot cold : MBSide} {Q : ℝ} (h : Spec.Reversed hot cold Q) :
    Spec.Balanced (mbTurn hot) (mbTurn cold) Q :=
  ⟨h.mh, h.mc, h.heated.le, h.cooled.le, h.qh, h.qc, h.oh, h.oc⟩

/-- C48 for reversed heat flow: the borders still divide the heat from zero to `Q`, but of the states the temperatures
are calculated for only the first one, at the outlet of the first and the inlet of the second stream, is a state of
the streams; every other one is beyond, up to twice the change of enthalpy away from the other end. -/
theorem C48_reversed_partial (hot cold : MBSide) (Q : ℝ) (h : Spec.Reversed hot cold Q) :
    (mbSections hot cold).Pairwise (· ≤ ·) ∧ (mbSections hot cold).head? = some 0 ∧
    (mbSections hot cold).getLast? = some Q ∧
    (∀ q ∈ mbSections hot cold, q ≠ 0 →
      ¬ Spec.InSide hot (hot.hout + q / hot.m) ∧ ¬ Spec.InSide cold (cold.hin + q / cold.m)) ∧
    hot.hout + Q / hot.m = hot.hin + 2 * (hot.hout - hot.hin) ∧
    cold.hin + Q / cold.m = cold.hout + 2 * (cold.hin - cold.hout) := by
  have hb := reversed_turn h
  obtain ⟨s1, s2, s3, -⟩ := C48_sections _ _ _ hb
  have hr := mbSections_range hb
  rw [mbSections_turn] at s1 s2 s3 hr
  have hmh := h.mh
  have hmc := h.mc
  refine ⟨s1, s2, s3, ?_, ?_, ?_⟩
  · intro q hq h0
    have hq0 : 0 < q := lt_of_le_of_ne (hr q hq).1 (Ne.symm h0)
    constructor
    · rintro ⟨-, hu⟩
      rw [max_eq_right h.heated.le] at hu
      have := div_pos hq0 hmh
      linarith
    · rintro ⟨-, hu⟩
      rw [max_eq_left h.cooled.le] at hu
      have := div_pos hq0 hmc
      linarith
  · rw [← h.qh]; field_simp; ring
  · rw [← h.qc]; field_simp; ring

/-- C48 is false for reversed heat flow: without any losses of pressure and with temperatures rising with the
enthalpy, the pinch is larger than the difference at an end of the heat exchanger. -/
theorem C48_reversed_false :
    ∃ (Th Tc : ℝ → ℝ → ℝ) (hot cold : MBSide) (Q v : ℝ), Spec.Reversed hot cold Q ∧
      hot.pout = hot.pin ∧ cold.pout = cold.pin ∧ (∀ p, StrictMono (Th p)) ∧ (∀ p, StrictMono (Tc p)) ∧
      mbPinch Th Tc hot cold = .ok v ∧ ¬ v ≤ Th hot.pin hot.hin - Tc cold.pout cold.hout := by
  have hr : Spec.Reversed ⟨300, 350, 1, 1, 1, none⟩ ⟨400, 375, 2, 1, 1, none⟩ 50 := by
    constructor <;> first
      | (norm_num; done)
      | (intro hl hg h; cases h)
  refine ⟨fun _ h => h, fun _ h => h, _, _, 50, -50, hr, rfl, rfl, fun _ => strictMono_id,
    fun _ => strictMono_id, ?_, by norm_num⟩
  norm_num [mbPinch, mbSections, mbHot, mbCold, mbSteps, mbStepsSorted, mbQSections, cumsumFrom, mbTHot, mbTCold, mbTd,
    pyMin, List.insertionSort, List.orderedInsert]

end Tespy
