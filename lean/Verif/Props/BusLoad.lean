import Verif.Props.Bus
import Verif.Props.CharLine
import Mathlib.Algebra.Order.Field.Basic
import Mathlib.Algebra.Order.Field.Rat
import Mathlib.Tactic.Linarith

/-!
C33: when the value of a component on a bus determines the value of the component.
-/
namespace Tespy

section
variable {K : Type} [Field K] [LinearOrder K] [IsStrictOrderedRing K]

theorem componentLoad_mono (a b : K) (pref : Option K) (h : |a| ≤ |b|) :
    Spec.componentLoad a pref ≤ Spec.componentLoad b pref := by
  unfold Spec.componentLoad
  cases pref with
  | none => exact le_rfl
  | some r =>
    simp only
    split
    · exact le_rfl
    · rw [abs_div, abs_div]
      exact div_le_div_of_nonneg_right h (abs_nonneg r)

/-- C33 (base 'component'): with positive efficiencies that do not fall with the load the value on the bus grows with the
value of the component, so that each value on the bus belongs to one value of the component. -/
theorem C33_determined_partial (r : BusRow K) (hb : r.base = .component) (hv : r.char.Valid) (hne : 0 < r.char.x.length)
    (hex : r.char.extrapolate = false) (hy : r.char.y.Pairwise (· ≤ ·)) (hpos : ∀ t ∈ r.char.y, 0 < t)
    (a b va vb : K) (ha : calcBusValue a r = .ok va) (hb' : calcBusValue b r = .ok vb) :
    (a < b ↔ va < vb) ∧ (a = b ↔ va = vb) := by
  have key : ∀ a b va vb : K, calcBusValue a r = .ok va → calcBusValue b r = .ok vb → a < b → va < vb := by
    intro a b va vb ha hb' hlt
    obtain ⟨ea, -, h1, rfl⟩ := (C33_component a r hb va).1 ha
    obtain ⟨eb, -, h2, rfl⟩ := (C33_component b r hb vb).1 hb'
    have pos : ∀ x e, r.char.evaluate x = .ok e → 0 < e := by
      intro x e he
      obtain ⟨m, hm, hmin⟩ : ∃ m, 0 < m ∧ ∀ t ∈ r.char.y, m ≤ t := by
        have : ∀ l : List K, (∀ t ∈ l, 0 < t) → ∃ m, 0 < m ∧ ∀ t ∈ l, m ≤ t := by
          intro l
          induction l with
          | nil => intro _; exact ⟨1, one_pos, by simp⟩
          | cons c l ih =>
            intro hl
            obtain ⟨m, hm, hm'⟩ := ih (fun t ht => hl t (List.mem_cons_of_mem _ ht))
            refine ⟨min c m, lt_min (hl c List.mem_cons_self) hm, ?_⟩
            intro t ht
            rcases List.mem_cons.1 ht with rfl | ht
            · exact min_le_left _ _
            · exact le_trans (min_le_right _ _) (hm' t ht)
        exact this _ hpos
      obtain ⟨M, hM⟩ : ∃ M, ∀ t ∈ r.char.y, t ≤ M := by
        have : ∀ l : List K, ∃ M, ∀ t ∈ l, t ≤ M := by
          intro l
          induction l with
          | nil => exact ⟨0, by simp⟩
          | cons c l ih =>
            obtain ⟨M, hM⟩ := ih
            refine ⟨max c M, ?_⟩
            intro t ht
            rcases List.mem_cons.1 ht with rfl | ht
            · exact le_max_left _ _
            · exact le_trans (hM t ht) (le_max_right _ _)
        exact this _
      obtain ⟨q, hq, h1, -⟩ := C05_bounded r.char hv hne hex m M (fun t ht => ⟨hmin t ht, hM t ht⟩) x
      rw [he] at hq
      cases hq
      exact lt_of_lt_of_le hm h1
    have pa := pos _ _ h1
    have pb := pos _ _ h2
    have mono := C05_monotone r.char hv hne hex hy
    rcases le_or_gt 0 a with h0 | h0
    · have hle := mono _ _ _ _ (componentLoad_mono a b r.pref
        (by rw [abs_of_nonneg h0, abs_of_nonneg (h0.trans hlt.le)]; exact hlt.le)) h1 h2
      exact lt_of_le_of_lt (mul_le_mul_of_nonneg_left hle h0) (mul_lt_mul_of_pos_right hlt pb)
    · rcases le_or_gt b 0 with h3 | h3
      · have hle := mono _ _ _ _ (componentLoad_mono b a r.pref
          (by rw [abs_of_nonpos h3, abs_of_neg h0]; linarith)) h2 h1
        exact lt_of_lt_of_le (mul_lt_mul_of_pos_right hlt pa) (mul_le_mul_of_nonpos_left hle h3)
      · exact lt_trans (mul_neg_of_neg_of_pos h0 pa) (mul_pos h3 pb)
  refine ⟨⟨key a b va vb ha hb', fun h => ?_⟩, ⟨fun h => ?_, fun h => ?_⟩⟩
  · by_contra hn
    rcases (not_lt.1 hn).eq_or_lt with e | e
    · subst e
      rw [ha] at hb'
      cases hb'
      exact lt_irrefl _ h
    · exact lt_asymm h (key b a vb va hb' ha e)
  · subst h
    rw [ha] at hb'
    cases hb'
    rfl
  · subst h
    rcases lt_trichotomy a b with e | e | e
    · exact absurd (key a b va va ha hb' e) (lt_irrefl _)
    · exact e
    · exact absurd (key b a va va hb' ha e) (lt_irrefl _)

end

/-- C33 is false for the component if the efficiency falls with the load: on a bus with half the efficiency at twice the
reference value both loads have the same value. -/
theorem C33_two_loads_false : ∃ r : BusRow ℚ, r.base = .component ∧ r.char.Valid ∧ (∀ t ∈ r.char.y, 0 < t ∧ t ≤ 1) ∧
    calcBusValue 100 r = .ok 100 ∧ calcBusValue 200 r = .ok 100 ∧ calcBusValue 150 r = .ok (225 / 2) := by
  refine ⟨⟨none, some 100, ⟨[0, 1, 2], [1, 1, 1 / 2], false⟩, .component⟩, rfl, ⟨rfl, by decide +kernel⟩, ?_, ?_, ?_, ?_⟩
  all_goals decide +kernel

-- non-vacuity: the characteristic with part load behaviour
example : exPartLoad.base = .component ∧ exPartLoad.char.Valid ∧ 0 < exPartLoad.char.x.length ∧
    exPartLoad.char.extrapolate = false ∧ exPartLoad.char.y.Pairwise (· ≤ ·) ∧ (∀ t ∈ exPartLoad.char.y, 0 < t) ∧
    calcBusValue 50 exPartLoad = .ok (75 / 2) ∧ calcBusValue 100 exPartLoad = .ok 100 := by
  refine ⟨rfl, ⟨rfl, by decide +kernel⟩, ?_, rfl, ?_, ?_, ?_, ?_⟩ <;> decide +kernel

end Tespy
