import Mathlib.Data.List.Basic
import Mathlib.Data.List.Nodup
import Verif.Model.Py
namespace Tespy.Dict
variable {κ : Type _} {β : Type _} [DecidableEq κ]

@[simp] theorem get?_nil (k : κ) : get? ([] : Dict κ β) k = none := rfl

theorem get?_set (d : Dict κ β) (k k' : κ) (b : β) :
    (d.set k b).get? k' = if k' = k then some b else d.get? k' := by
  induction d with
  | nil => simp [set, get?]
  | cons e d ih =>
    obtain ⟨a, c⟩ := e
    unfold set
    by_cases h : k = a
    · subst h
      simp only [if_true, get?]
      by_cases h' : k' = k <;> simp [h']
    · rw [if_neg h]
      simp only [get?, ih]
      by_cases h' : k' = a
      · subst h'
        have : ¬ k' = k := fun hc => h hc.symm
        simp [this]
      · simp [h']

theorem get?_eq_none_iff (d : Dict κ β) (k : κ) : d.get? k = none ↔ k ∉ d.keys := by
  induction d with
  | nil => simp [keys]
  | cons e d ih =>
    obtain ⟨a, c⟩ := e
    simp only [get?, keys, List.map_cons, List.mem_cons, not_or]
    by_cases h : k = a
    · simp [h]
    · simp only [h, if_false, not_false_eq_true, true_and]; exact ih

theorem get?_isSome_iff (d : Dict κ β) (k : κ) : (d.get? k).isSome ↔ k ∈ d.keys := by
  rw [← not_iff_not, Bool.not_eq_true, Option.isSome_eq_false_iff, Option.isNone_iff_eq_none, get?_eq_none_iff]

theorem mem_of_get? {d : Dict κ β} {k : κ} {b : β} (h : d.get? k = some b) : (k, b) ∈ d := by
  induction d with
  | nil => simp at h
  | cons e d ih =>
    obtain ⟨a, c⟩ := e
    simp only [get?] at h
    by_cases hk : k = a
    · subst hk; simp at h; subst h; simp
    · simp [hk] at h; exact List.mem_cons_of_mem _ (ih h)

theorem get?_of_mem {d : Dict κ β} (hn : d.keys.Nodup) {k : κ} {b : β} (h : (k, b) ∈ d) :
    d.get? k = some b := by
  induction d with
  | nil => simp at h
  | cons e d ih =>
    obtain ⟨a, c⟩ := e
    simp only [keys, List.map_cons, List.nodup_cons] at hn
    simp only [get?]
    rcases List.mem_cons.mp h with h1 | h1
    · cases h1; simp
    · have : k ≠ a := by
        rintro rfl
        exact hn.1 (List.mem_map.mpr ⟨(k, b), h1, rfl⟩)
      simp [this, ih hn.2 h1]

theorem keys_set_of_mem {d : Dict κ β} {k : κ} (b : β) (h : k ∈ d.keys) : (d.set k b).keys = d.keys := by
  induction d with
  | nil => simp [keys] at h
  | cons e d ih =>
    obtain ⟨a, c⟩ := e
    unfold set
    by_cases hk : k = a
    · subst hk; simp [keys]
    · rw [if_neg hk]
      simp only [keys, List.map_cons, List.mem_cons, hk, false_or] at h ⊢
      rw [show List.map Prod.fst (Dict.set d k b) = (Dict.set d k b).keys from rfl, ih h]; rfl

theorem set_of_not_mem {d : Dict κ β} {k : κ} (b : β) (h : k ∉ d.keys) : d.set k b = d ++ [(k, b)] := by
  induction d with
  | nil => rfl
  | cons e d ih =>
    obtain ⟨a, c⟩ := e
    simp only [keys, List.map_cons, List.mem_cons, not_or] at h
    unfold set
    rw [if_neg h.1, ih h.2]; rfl

theorem nodup_keys_set {d : Dict κ β} (k : κ) (b : β) (h : d.keys.Nodup) : (d.set k b).keys.Nodup := by
  by_cases hk : k ∈ d.keys
  · rw [keys_set_of_mem b hk]; exact h
  · rw [set_of_not_mem b hk]
    simp only [keys, List.map_append, List.map_cons, List.map_nil]
    exact List.Nodup.append h (List.nodup_singleton k) (List.disjoint_singleton.mpr hk)

theorem erase_sublist (d : Dict κ β) (k : κ) : (d.erase k).Sublist d := by
  induction d with
  | nil => exact List.Sublist.refl _
  | cons e d ih =>
    obtain ⟨a, c⟩ := e
    unfold erase
    by_cases h : k = a
    · rw [if_pos h]; exact List.sublist_cons_self _ _
    · rw [if_neg h]; exact ih.cons_cons _

theorem nodup_keys_erase {d : Dict κ β} (k : κ) (h : d.keys.Nodup) : (d.erase k).keys.Nodup :=
  h.sublist ((erase_sublist d k).map _)

theorem mem_erase {d : Dict κ β} (hn : d.keys.Nodup) (k : κ) (e : κ × β) :
    e ∈ d.erase k ↔ e ∈ d ∧ e.1 ≠ k := by
  induction d with
  | nil => simp [erase]
  | cons f d ih =>
    obtain ⟨a, c⟩ := f
    simp only [keys, List.map_cons, List.nodup_cons] at hn
    unfold erase
    by_cases h : k = a
    · subst h
      rw [if_pos rfl]
      constructor
      · intro he
        refine ⟨List.mem_cons_of_mem _ he, ?_⟩
        rintro rfl
        exact hn.1 (List.mem_map.mpr ⟨_, he, rfl⟩)
      · rintro ⟨he, hne⟩
        rcases List.mem_cons.mp he with rfl | he
        · exact absurd rfl hne
        · exact he
    · rw [if_neg h, List.mem_cons, ih hn.2, List.mem_cons]
      constructor
      · rintro (rfl | h')
        · exact ⟨Or.inl rfl, fun hc => h hc.symm⟩
        · exact ⟨Or.inr h'.1, h'.2⟩
      · rintro ⟨rfl | h', h''⟩
        · exact Or.inl rfl
        · exact Or.inr ⟨h', h''⟩

theorem get?_erase {d : Dict κ β} (hn : d.keys.Nodup) (k k' : κ) :
    (d.erase k).get? k' = if k' = k then none else d.get? k' := by
  by_cases h : k' = k
  · rw [if_pos h, get?_eq_none_iff]
    intro hc
    obtain ⟨e, he, rfl⟩ := List.mem_map.mp hc
    exact ((mem_erase hn k e).mp he).2 h
  · rw [if_neg h]
    cases hd : d.get? k' with
    | none =>
      rw [get?_eq_none_iff] at hd ⊢
      intro hc; exact hd (((erase_sublist d k).map _).subset hc)
    | some b =>
      exact get?_of_mem (nodup_keys_erase k hn) ((mem_erase hn k _).mpr ⟨mem_of_get? hd, h⟩)

end Tespy.Dict
