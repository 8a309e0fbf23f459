import Mathlib.Algebra.Order.Field.Rat
import Mathlib.Algebra.Order.Field.Basic
import Mathlib.Data.List.Nodup
import Mathlib.Tactic.Linarith
import Mathlib.Tactic.FieldSimp
import Mathlib.Tactic.Ring
import Mathlib.Tactic.LinearCombination
import Verif.Model.Solver
/-
C25: bounds kept by the update of the variables. C26: sum of the mass fractions.
-/
namespace Tespy
variable {K : Type} [Field K] [LinearOrder K]

/-- value of a variable -/
def VVals.get (s : VVals K) : Owner → K
  | .prop b => s.prop b
  | .fluid b f => s.fluid b f
  | .comp i v => s.comp i v

omit [Field K] [LinearOrder K] in
theorem VVals.ext_get {s t : VVals K} (h : ∀ o, s.get o = t.get o) : s = t := by
  cases s; cases t
  congr
  · funext b; exact h (.prop b)
  · funext b f; exact h (.fluid b f)
  · funext b f; exact h (.comp b f)

section
variable (ERR : K) (kind : ℕ → PropKind) (lo hi : ℕ → String → K) (inc : ℕ → K) (col : Owner → ℕ)

/-- value of one variable after the update, from its old value and its increment -/
def newValue (o : Owner) (x d : K) : K :=
  match o with
  | .prop b => match kind b with | .p => updP x d | _ => x + d
  | .fluid _ _ => updFluid ERR x d
  | .comp i v => updComp (lo i v) (hi i v) x d

theorem updateOne_get (s : VVals K) (o o' : Owner) :
    (updateOne ERR kind lo hi inc col s o).get o' =
      if o' = o then newValue ERR kind lo hi o (s.get o) (inc (col o)) else s.get o' := by
  cases o with
  | prop b =>
    cases o' with
    | prop b' =>
      by_cases h : b' = b
      · subst h; cases hk : kind b' <;> simp [updateOne, VVals.get, newValue, hk]
      · simp [updateOne, VVals.get, h]
    | fluid b' f => simp [updateOne, VVals.get]
    | comp b' f => simp [updateOne, VVals.get]
  | fluid b f =>
    cases o' with
    | prop b' => simp [updateOne, VVals.get]
    | comp b' g => simp [updateOne, VVals.get]
    | fluid b' g =>
      by_cases h : b' = b ∧ g = f
      · obtain ⟨rfl, rfl⟩ := h; simp [updateOne, VVals.get, newValue]
      · simp [updateOne, VVals.get, h]
  | comp b f =>
    cases o' with
    | prop b' => simp [updateOne, VVals.get]
    | fluid b' g => simp [updateOne, VVals.get]
    | comp b' g =>
      by_cases h : b' = b ∧ g = f
      · obtain ⟨rfl, rfl⟩ := h; simp [updateOne, VVals.get, newValue]
      · simp [updateOne, VVals.get, h]

/-- Every variable is updated once with the increment of its own column, all other values
stay. -/
theorem updateVariables_get (os : List Owner) (hn : os.Nodup) (s : VVals K) (o : Owner) :
    (updateVariables ERR kind lo hi inc col os s).get o =
      if o ∈ os then newValue ERR kind lo hi o (s.get o) (inc (col o)) else s.get o := by
  induction os generalizing s with
  | nil => simp [updateVariables]
  | cons a os ih =>
    rw [List.nodup_cons] at hn
    rw [updateVariables, ih hn.2, updateOne_get]
    by_cases h : o = a
    · subst h; simp [hn.1]
    · simp [h]
end

variable [IsStrictOrderedRing K]

/-- a positive pressure is at least halved, never more -/
theorem updP_pos (p d : K) (hp : 0 < p) : p / 2 ≤ updP p d ∧ 0 < updP p d := by
  unfold updP
  have h1 : (1 : K) ≤ max 1 (-2 * d / p) := le_max_left _ _
  have h2 : -2 * d / p ≤ max 1 (-2 * d / p) := le_max_right _ _
  generalize max 1 (-2 * d / p) = r at h1 h2
  have hr : 0 < r := lt_of_lt_of_le one_pos h1
  rw [div_le_iff₀ hp] at h2
  have h3 : - (p / 2) ≤ d / r := by
    rw [le_div_iff₀ hr]
    nlinarith
  constructor <;> linarith

theorem updFluid_range (ERR x d : K) (h0 : 0 < ERR) (h1 : ERR ≤ 1) : 0 ≤ updFluid ERR x d ∧ updFluid ERR x d ≤ 1 := by
  unfold updFluid
  split
  · constructor <;> linarith
  · split
    · constructor <;> linarith
    · constructor <;> linarith

omit [IsStrictOrderedRing K] in
theorem updComp_range (lo hi x d : K) (h : lo ≤ hi) : lo ≤ updComp lo hi x d ∧ updComp lo hi x d ≤ hi := by
  unfold updComp
  split
  · exact ⟨le_refl _, h⟩
  · split
    · exact ⟨h, le_refl _⟩
    · rename_i h1 h2; exact ⟨not_lt.mp h1, not_lt.mp h2⟩

/-- C25: after an update with any increments a positive pressure is positive (at least
half of its old value), every variable mass fraction is in `[0, 1]`, every component
variable is in its bounds, and no value changes which is not a variable. -/
theorem C25_update_bounds (ERR : K) (kind : ℕ → PropKind) (lo hi : ℕ → String → K) (inc : ℕ → K)
    (col : Owner → ℕ) (dict : List Owner) (hn : dict.Nodup) (s : VVals K)
    (h0 : 0 < ERR) (h1 : ERR ≤ 1) :
    let s' := updateVariables ERR kind lo hi inc col dict s
    (∀ b, kind b = .p → 0 < s.prop b → 0 < s'.prop b ∧ s.prop b / 2 ≤ s'.prop b) ∧
    (∀ b f, .fluid b f ∈ dict → 0 ≤ s'.fluid b f ∧ s'.fluid b f ≤ 1) ∧
    (∀ i v, .comp i v ∈ dict → lo i v ≤ hi i v → lo i v ≤ s'.comp i v ∧ s'.comp i v ≤ hi i v) ∧
    (∀ o, o ∉ dict → s'.get o = s.get o) := by
  intro s'
  have hget := updateVariables_get ERR kind lo hi inc col dict hn s
  refine ⟨?_, ?_, ?_, ?_⟩
  · intro b hk hp
    have := hget (.prop b)
    change s'.prop b = _ at this
    rw [this]
    split
    · simp only [newValue, hk, VVals.get]
      exact ⟨(updP_pos _ _ hp).2, (updP_pos _ _ hp).1⟩
    · exact ⟨hp, by change s.prop b / 2 ≤ s.prop b; linarith⟩
  · intro b f hm
    have := hget (.fluid b f)
    change s'.fluid b f = _ at this
    rw [this, if_pos hm]
    exact updFluid_range ERR _ _ h0 h1
  · intro i v hm hl
    have := hget (.comp i v)
    change s'.comp i v = _ at this
    rw [this, if_pos hm]
    exact updComp_range _ _ _ _ hl
  · intro o ho
    rw [hget o, if_neg ho]

/-- C25: the update is exact when no bound interferes: a full Newton step. -/
theorem C25_full_step (ERR : K) (kind : ℕ → PropKind) (lo hi : ℕ → String → K) (inc : ℕ → K)
    (col : Owner → ℕ) (dict : List Owner) (hn : dict.Nodup) (s : VVals K) (o : Owner) (ho : o ∈ dict)
    (hp : ∀ b, o = .prop b → kind b = .p → 0 < s.prop b ∧ -(s.prop b / 2) ≤ inc (col o))
    (hf : ∀ b f, o = .fluid b f → ERR ≤ s.get o + inc (col o) ∧ s.get o + inc (col o) ≤ 1 - ERR)
    (hc : ∀ i v, o = .comp i v → lo i v ≤ s.get o + inc (col o) ∧ s.get o + inc (col o) ≤ hi i v) :
    (updateVariables ERR kind lo hi inc col dict s).get o = s.get o + inc (col o) := by
  rw [updateVariables_get _ _ _ _ _ _ _ hn, if_pos ho]
  cases o with
  | prop b =>
    simp only [newValue]
    cases hk : kind b with
    | m => rfl
    | h => rfl
    | p =>
      obtain ⟨h1, h2⟩ := hp b rfl hk
      simp only [updP, VVals.get]
      rw [max_eq_left, div_one]
      rw [div_le_iff₀ h1]
      linarith
  | fluid b f =>
    obtain ⟨h1, h2⟩ := hf b f rfl
    simp only [newValue, updFluid]
    rw [if_neg (not_lt.mpr h1), if_neg (not_lt.mpr h2)]
  | comp i v =>
    obtain ⟨h1, h2⟩ := hc i v rfl
    simp only [newValue, updComp]
    rw [if_neg (not_lt.mpr h1), if_neg (not_lt.mpr h2)]

-- non-vacuity: pressure 10 with increment -100 becomes 5
example : (updateVariables (1/1000000 : ℚ) (fun _ => .p) (fun _ _ => 0) (fun _ _ => 1) (fun _ => -100)
    (fun _ => 0) [.prop 0, .fluid 1 "O2"] ⟨fun _ => 10, fun _ _ => 1/2, fun _ _ => 0⟩).prop 0 = 5 := by
  decide +kernel

/-! ### C26 -/

/-- sum of the mass fractions -/
def total (val : Dict String K) : K := (val.map Prod.snd).sum
/-- sum of the fractions which are not variable -/
def fixedPart (isVar : List String) (val : Dict String K) : K :=
  ((val.filter (fun e => e.1 ∉ isVar)).map Prod.snd).sum

omit [IsStrictOrderedRing K] [LinearOrder K] in
theorem total_map (isVar : List String) (val : Dict String K) (t : K) :
    total (val.map (fun e => if e.1 ∈ isVar then (e.1, e.2 / t) else e)) =
      fixedPart isVar val + (total val - fixedPart isVar val) / t := by
  induction val with
  | nil => simp [total, fixedPart]
  | cons e val ih =>
    unfold total fixedPart at ih ⊢
    by_cases h : e.1 ∈ isVar
    · simp only [List.map_cons, List.sum_cons, h, if_true]
      rw [List.filter_cons_of_neg (by simpa using h), ih]
      ring
    · simp only [List.map_cons, List.sum_cons, h, if_false]
      rw [List.filter_cons_of_pos (by simpa using h), ih, List.map_cons, List.sum_cons]
      ring

omit [IsStrictOrderedRing K] [LinearOrder K] in
theorem fixedPart_map (isVar : List String) (val : Dict String K) (t : K) :
    fixedPart isVar (val.map (fun e => if e.1 ∈ isVar then (e.1, e.2 / t) else e)) = fixedPart isVar val := by
  induction val with
  | nil => rfl
  | cons e val ih =>
    unfold fixedPart at ih ⊢
    by_cases h : e.1 ∈ isVar
    · rw [List.map_cons, if_pos h, List.filter_cons_of_neg (by simpa using h), List.filter_cons_of_neg (by simpa using h)]
      exact ih
    · rw [List.map_cons, if_neg h, List.filter_cons_of_pos (by simpa using h), List.filter_cons_of_pos (by simpa using h),
        List.map_cons, List.map_cons, List.sum_cons, List.sum_cons, ih]

omit [IsStrictOrderedRing K] in
/-- C26: the normalisation of a composition with variable fluids gives a sum of one if
and only if the fixed fractions sum to zero or the sum was one before. -/
theorem C26_sum_iff (isVar : List String) (val val' : Dict String K) (hv : isVar ≠ [])
    (h : normalise isVar val = .ok val') :
    total val' = 1 ↔ fixedPart isVar val = 0 ∨ total val = 1 := by
  unfold normalise at h
  simp only at h
  rw [if_neg hv] at h
  change (if total val = 0 then _ else _) = _ at h
  by_cases ht : total val = 0
  · rw [if_pos ht] at h; simp at h
  · rw [if_neg ht] at h
    injection h with h
    subst h
    change total (val.map (fun e => if e.1 ∈ isVar then (e.1, e.2 / total val) else e)) = 1 ↔ _
    rw [total_map]
    generalize fixedPart isVar val = F
    generalize total val = T at ht
    constructor
    · intro h
      field_simp at h
      have h2 : F * (T - 1) = 0 := by linear_combination h
      rcases mul_eq_zero.mp h2 with h3 | h3
      · exact Or.inl h3
      · right; linear_combination h3
    · rintro (h | h)
      · subst h; rw [sub_zero, zero_add, div_self ht]
      · subst h; ring

omit [IsStrictOrderedRing K] in
/-- C26, the part that holds: without fixed fractions the mass fractions sum to one after
the normalisation, however many connections of the branch repeat it. Missing: fixed
fractions (see `C26_fixed_and_variable`). -/
theorem C26_sum_one_partial (isVar : List String) (n : ℕ) (val val' : Dict String K) (hv : isVar ≠ [])
    (hf : fixedPart isVar val = 0)
    (h : normaliseTimes isVar (n + 1) val = .ok val') : total val' = 1 := by
  induction n generalizing val with
  | zero =>
    unfold normaliseTimes at h
    cases hn : normalise isVar val with
    | error e => rw [hn] at h; simp at h
    | ok v =>
      rw [hn] at h
      simp only [normaliseTimes, Except.ok.injEq] at h
      subst h
      exact (C26_sum_iff isVar val v hv hn).mpr (Or.inl hf)
  | succ n ih =>
    rw [normaliseTimes] at h
    cases hn : normalise isVar val with
    | error e => rw [hn] at h; simp at h
    | ok v =>
      rw [hn] at h
      refine ih v ?_ h
      unfold normalise at hn
      simp only at hn
      rw [if_neg hv] at hn
      split at hn
      · simp at hn
      · injection hn with hn
        rw [← hn, fixedPart_map]; exact hf

/-- C26, refuted: with one fixed fraction of 1/2 and a variable one which the solver moved
from 1/2 to 3/5 the fractions sum to 1/2 + 6/11 afterwards. -/
theorem C26_fixed_and_variable :
    ∃ (val val' : Dict String ℚ), normalise ["O2"] val = .ok val' ∧
      fixedPart ["O2"] val = 1/2 ∧ total val' = 23/22 ∧ total val' ≠ 1 :=
  ⟨[("N2", 1/2), ("O2", 3/5)], [("N2", 1/2), ("O2", 6/11)], by decide +kernel⟩

/-- C26, refuted: a composition in which all fractions became 0 raises an exception. -/
theorem C26_all_zero : normalise ["O2", "N2"] ([("N2", 0), ("O2", 0)] : Dict String ℚ) = .error .zeroDivision := by
  decide +kernel

example : normaliseTimes ["O2", "N2"] 2 ([("N2", 3/5), ("O2", 3/5)] : Dict String ℚ) =
    .ok [("N2", 1/2), ("O2", 1/2)] := by decide +kernel

end Tespy
