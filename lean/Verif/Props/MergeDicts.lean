import Verif.Model.Optim
import Mathlib.Tactic.Common

/-
C46: merge_dicts merges recursively without losing entries.
-/
namespace Tespy
namespace Spec
variable {α : Type}

/-- the value that is not a dictionary found at the end of a path of keys -/
def leafAt : PTree α → List String → Option α
  | .leaf a, [] => some a
  | .leaf _, _ :: _ => none
  | .node _, [] => none
  | .node d, k :: p =>
    match Dict.get? d k with
    | some t => leafAt t p
    | none => none

/-- the dictionary found at the end of a path of keys -/
def dictAt : PTree α → List String → Option (List (String × PTree α))
  | .leaf _, _ => none
  | .node d, [] => some d
  | .node d, k :: p =>
    match Dict.get? d k with
    | some t => dictAt t p
    | none => none

/-- on the way along the path (including its end) there is a value that is not a dictionary -/
def Blocks (t : PTree α) (p : List String) : Prop := ∃ q, q <+: p ∧ (leafAt t q).isSome

/-- every dictionary in the tree has distinct keys, as Python dictionaries have -/
inductive WF : PTree α → Prop
  | leaf (a : α) : WF (.leaf a)
  | node (d : List (String × PTree α)) : (Dict.keys d).Nodup → (∀ e ∈ d, WF e.2) → WF (.node d)

/-- the first tree has a value that is not a dictionary where the second one has a dictionary
with entries -/
def Conflict (t1 t2 : PTree α) : Prop :=
  ∃ p a d, leafAt t1 p = some a ∧ dictAt t2 p = some d ∧ d ≠ []

end Spec

open PTree
variable {α : Type}

theorem WF.of_get? {d : List (String × PTree α)} (h : Spec.WF (.node d)) {k : String}
    {t : PTree α} (hk : Dict.get? d k = some t) : Spec.WF t := by
  cases h with
  | node _ _ h2 => exact h2 _ (Dict.mem_of_get? hk)

theorem mergeInto_cons (result : PTree α) (e : String × PTree α) (d : List (String × PTree α)) :
    mergeInto result (e :: d) =
      match e.2 with
      | .leaf a =>
        match result.setItem e.1 (.leaf a) with
        | .error e => .error e
        | .ok r => mergeInto r d
      | .node d' =>
        match result.getD e.1 with
        | .error e => .error e
        | .ok sub =>
          match mergeInto sub d' with
          | .error e => .error e
          | .ok m =>
            match result.setItem e.1 m with
            | .error e => .error e
            | .ok r => mergeInto r d := by
  obtain ⟨k, v⟩ := e
  cases v <;> (rw [mergeInto]; rfl)

/-- the value one key of the second dictionary gives: its copy or the merged dictionary -/
def mergedAt (old : Option (PTree α)) : PTree α → PyRes (PTree α)
  | .leaf a => .ok (.leaf a)
  | .node d' => mergeInto (old.getD (.node [])) d'

theorem mergeInto_step (d1 : List (String × PTree α)) (k : String) (v : PTree α)
    (d : List (String × PTree α)) :
    mergeInto (.node d1) ((k, v) :: d) =
      match mergedAt (Dict.get? d1 k) v with
      | .error e => .error e
      | .ok m => mergeInto (.node (Dict.set d1 k m)) d := by
  rw [mergeInto_cons]
  cases v with
  | leaf a => rfl
  | node d' =>
    simp only [PTree.getD, mergedAt]
    cases hg : Dict.get? d1 k with
    | none => simp only [Option.getD]; cases mergeInto (.node []) d' <;> rfl
    | some t => simp only [Option.getD]; cases mergeInto t d' <;> rfl

/-- one level of the merge: the result is a dictionary with exactly the merged values -/
theorem mergeInto_get (d2 : List (String × PTree α)) :
    ∀ (d1 : List (String × PTree α)) (r : PTree α), (Dict.keys d2).Nodup →
      mergeInto (.node d1) d2 = .ok r →
      ∃ d, r = .node d ∧ ∀ k,
        match Dict.get? d2 k with
        | none => Dict.get? d k = Dict.get? d1 k
        | some v => ∃ m, mergedAt (Dict.get? d1 k) v = .ok m ∧ Dict.get? d k = some m := by
  induction d2 with
  | nil =>
    intro d1 r _ h
    simp only [mergeInto, Except.ok.injEq] at h
    exact ⟨d1, h.symm, fun k => by simp [Dict.get?]⟩
  | cons e d2 ih =>
    intro d1 r hn h
    obtain ⟨k0, v0⟩ := e
    have hn' : k0 ∉ Dict.keys d2 ∧ (Dict.keys d2).Nodup := by simpa [Dict.keys] using hn
    rw [mergeInto_step] at h
    cases hm : mergedAt (Dict.get? d1 k0) v0 with
    | error er => simp [hm] at h
    | ok m =>
      simp only [hm] at h
      obtain ⟨d, rfl, hd⟩ := ih _ _ hn'.2 h
      refine ⟨d, rfl, fun k => ?_⟩
      have hk := hd k
      by_cases hkk : k = k0
      · subst hkk
        have hnone : Dict.get? d2 k = none := (Dict.get?_eq_none_iff d2 k).2 hn'.1
        rw [hnone] at hk
        simp only [Dict.get?, if_true]
        refine ⟨m, hm, ?_⟩
        rw [hk, Dict.get?_set]
        simp
      · simp only [Dict.get?, if_neg hkk]
        rw [Dict.get?_set, if_neg hkk] at hk
        exact hk

theorem mergeInto_leaf (a : α) (d2 : List (String × PTree α)) (r : PTree α)
    (h : mergeInto (.leaf a) d2 = .ok r) : d2 = [] ∧ r = .leaf a := by
  cases d2 with
  | nil => simpa [mergeInto, eq_comm] using h
  | cons e d =>
    rw [mergeInto_cons] at h
    obtain ⟨k, v⟩ := e
    cases v <;> simp [PTree.setItem, PTree.getD] at h

theorem leafAt_leaf (a : α) (p : List String) :
    Spec.leafAt (.leaf a) p = if p = [] then some a else none := by
  cases p <;> simp [Spec.leafAt]

theorem leafAt_empty (p : List String) : Spec.leafAt (α := α) (.node []) p = none := by
  cases p <;> simp [Spec.leafAt, Dict.get?]

theorem not_blocks_empty (p : List String) : ¬ Spec.Blocks (α := α) (.node []) p := by
  rintro ⟨q, _, hq⟩
  simp [leafAt_empty] at hq

theorem blocks_cons (d : List (String × PTree α)) (k : String) (p : List String) :
    Spec.Blocks (.node d) (k :: p) ↔
      ∃ t, Dict.get? d k = some t ∧ Spec.Blocks t p := by
  constructor
  · rintro ⟨q, hq, hs⟩
    cases q with
    | nil => simp [Spec.leafAt] at hs
    | cons k' q =>
      obtain ⟨rfl, hq'⟩ := List.cons_prefix_cons.1 hq
      simp only [Spec.leafAt] at hs
      cases hg : Dict.get? d k' with
      | none => simp [hg] at hs
      | some t => exact ⟨t, rfl, q, hq', by simpa [hg] using hs⟩
  · rintro ⟨t, ht, q, hq, hs⟩
    exact ⟨k :: q, List.cons_prefix_cons.2 ⟨rfl, hq⟩, by simpa [Spec.leafAt, ht] using hs⟩

/-- **C46.** A completed `merge_dicts(a, b)` has, for every path of keys, the value of `b`
wherever `b` has one at the path or on the way to it, and otherwise the value of `a`: no value of
`a` or `b` is lost and none is added. The keys of `b`'s dictionaries are distinct. -/
theorem C46_values (p : List String) : ∀ (t1 : PTree α) (d2 : List (String × PTree α))
    (r : PTree α), Spec.WF (.node d2) → mergeInto t1 d2 = .ok r →
    (Spec.Blocks (.node d2) p → Spec.leafAt r p = Spec.leafAt (.node d2) p) ∧
      (¬ Spec.Blocks (.node d2) p → Spec.leafAt r p = Spec.leafAt t1 p) := by
  induction p with
  | nil =>
    intro t1 d2 r hw h
    have hnb : ¬ Spec.Blocks (.node d2) [] := by
      rintro ⟨q, hq, hs⟩
      rw [List.prefix_nil.1 hq] at hs
      simp [Spec.leafAt] at hs
    refine ⟨fun hb => absurd hb hnb, fun _ => ?_⟩
    cases t1 with
    | leaf a => rw [(mergeInto_leaf a d2 r h).2]
    | node d1 =>
      cases hw with
      | node _ hn _ =>
        obtain ⟨d, rfl, _⟩ := mergeInto_get d2 d1 r hn h
        rfl
  | cons k p ih =>
    intro t1 d2 r hw h
    cases t1 with
    | leaf a =>
      obtain ⟨rfl, rfl⟩ := mergeInto_leaf a d2 r h
      exact ⟨fun hb => absurd hb (not_blocks_empty _), fun _ => rfl⟩
    | node d1 =>
      have hn : (Dict.keys d2).Nodup := by cases hw; assumption
      obtain ⟨d, rfl, hd⟩ := mergeInto_get d2 d1 r hn h
      have hk := hd k
      rw [blocks_cons]
      cases hg : Dict.get? d2 k with
      | none =>
        rw [hg] at hk
        refine ⟨fun ⟨t, ht, _⟩ => by simp at ht, fun _ => ?_⟩
        simp only [Spec.leafAt]
        rw [hk]
      | some v =>
        rw [hg] at hk
        obtain ⟨m, hm, hdm⟩ := hk
        simp only [Spec.leafAt, hg, hdm, Option.some.injEq, exists_eq_left']
        cases v with
        | leaf a =>
          simp only [mergedAt, Except.ok.injEq] at hm
          subst hm
          refine ⟨fun _ => rfl, fun hb => absurd ⟨[], List.nil_prefix, rfl⟩ hb⟩
        | node d' =>
          simp only [mergedAt] at hm
          have := ih _ d' m (WF.of_get? hw hg) hm
          refine ⟨this.1, fun hb => (this.2 hb).trans ?_⟩
          cases hg1 : Dict.get? d1 k with
          | none => simp [leafAt_empty]
          | some t => simp

theorem conflict_cons {d1 d2 : List (String × PTree α)} {k : String} {v : PTree α}
    (hg : Dict.get? d2 k = some v) (h : Spec.Conflict ((Dict.get? d1 k).getD (.node [])) v) :
    Spec.Conflict (.node d1) (.node d2) := by
  obtain ⟨p, a, d, h1, h2, h3⟩ := h
  cases hg1 : Dict.get? d1 k with
  | none => simp [hg1, leafAt_empty] at h1
  | some t =>
    rw [hg1] at h1
    exact ⟨k :: p, a, d, by simpa [Spec.leafAt, hg1] using h1,
      by simpa [Spec.dictAt, hg] using h2, h3⟩

/-- **C46.** `merge_dicts` completes exactly if there is no path where `a` has a value that is not
a dictionary and `b` has a dictionary with entries; otherwise it raises an error. -/
theorem C46_completes (t1 : PTree α) (d2 : List (String × PTree α)) (hw : Spec.WF (.node d2)) :
    (∃ r, mergeInto t1 d2 = .ok r) ↔ ¬ Spec.Conflict t1 (.node d2) := by
  constructor
  · rintro ⟨r, h⟩ ⟨p, a, d, h1, h2, h3⟩
    induction p generalizing t1 d2 r with
    | nil =>
      cases t1 with
      | leaf b =>
        obtain ⟨rfl, _⟩ := mergeInto_leaf b d2 r h
        simp [Spec.dictAt] at h2
        exact h3 h2
      | node d1 => simp [Spec.leafAt] at h1
    | cons k p ih =>
      cases t1 with
      | leaf b => simp [Spec.leafAt] at h1
      | node d1 =>
        have hn : (Dict.keys d2).Nodup := by cases hw; assumption
        obtain ⟨d', rfl, hd⟩ := mergeInto_get d2 d1 r hn h
        have hk := hd k
        simp only [Spec.leafAt] at h1
        simp only [Spec.dictAt] at h2
        cases hg1 : Dict.get? d1 k with
        | none => simp [hg1] at h1
        | some t =>
          cases hg : Dict.get? d2 k with
          | none => simp [hg] at h2
          | some v =>
            simp only [hg1] at h1
            simp only [hg] at h2 hk
            obtain ⟨m, hm, _⟩ := hk
            cases v with
            | leaf b => simp [Spec.dictAt] at h2
            | node d'' =>
              rw [hg1] at hm
              exact ih t d'' (WF.of_get? hw hg) m (by simpa [mergedAt] using hm) h1 h2
  · -- by recursion on the second tree
    have key : ∀ (t2 : PTree α), Spec.WF t2 → ∀ d2, t2 = .node d2 → ∀ t1 : PTree α,
        ¬ Spec.Conflict t1 (.node d2) → ∃ r, mergeInto t1 d2 = .ok r := by
      intro t2 hw2
      induction hw2 with
      | leaf a => intro d2 h; cases h
      | node d hn _ ih =>
        intro d2 h t1 hc
        cases h
        cases t1 with
        | leaf a =>
          cases d with
          | nil => exact ⟨.leaf a, rfl⟩
          | cons e d => exact absurd ⟨[], a, e :: d, rfl, rfl, by simp⟩ hc
        | node d1 =>
          -- every key merges; run through the list
          have hall : ∀ e ∈ d, ∃ m, mergedAt (Dict.get? d1 e.1) e.2 = .ok m := by
            rintro ⟨k, v⟩ he
            cases v with
            | leaf a => exact ⟨_, rfl⟩
            | node d' =>
              exact ih _ he d' rfl _
                (fun hcc => hc (conflict_cons (Dict.get?_of_mem hn he) hcc))
          clear hc ih
          induction d generalizing d1 with
          | nil => exact ⟨.node d1, rfl⟩
          | cons e d ihd =>
            obtain ⟨k, v⟩ := e
            have hn' : k ∉ Dict.keys d ∧ (Dict.keys d).Nodup := by simpa [Dict.keys] using hn
            obtain ⟨m, hm⟩ := hall (k, v) (by simp)
            rw [mergeInto_step]
            simp only at hm
            simp only [hm]
            rename_i hwd
            refine ihd hn'.2 (fun e he => hwd e (by simp [he])) (Dict.set d1 k m) ?_
            rintro ⟨k', v'⟩ he
            have hne : k' ≠ k := by
              rintro rfl
              exact hn'.1 (List.mem_map_of_mem (f := Prod.fst) he)
            obtain ⟨m', hm'⟩ := hall (k', v') (by simp [he])
            exact ⟨m', by rw [Dict.get?_set, if_neg hne]; exact hm'⟩
    exact key _ hw d2 rfl t1

/-- **C46.** `merge_dicts` with the default structure as second argument (the use in
`OptimizationProblem`): an empty dictionary in `b` does not replace a value of `a`. The literal
reading "the value of `b` wherever `b` has the path" is false here: `b` has an empty dictionary
at the path, the result keeps the number of `a`. -/
theorem C46_empty_dictionary (x : α) :
    ∃ r, mergeDicts [("a", .leaf x)] [("a", .node [])] = .ok r ∧
      Spec.dictAt (.node [("a", .node [])]) ["a"] = some ([] : List (String × PTree α)) ∧
      Spec.leafAt r ["a"] = some x :=
  ⟨_, rfl, rfl, rfl⟩

/-! ## Examples -/

/-- two nested dictionaries with common and separate keys -/
def mdA : List (String × PTree ℕ) :=
  [("x", .node [("p", .leaf 1), ("q", .node [("r", .leaf 2)])]), ("y", .leaf 3), ("z", .leaf 9)]

def mdB : List (String × PTree ℕ) :=
  [("x", .node [("q", .node [("r", .leaf 4), ("s", .leaf 5)])]), ("z", .node []), ("y", .leaf 6)]

theorem mdB_wf : Spec.WF (.node mdB) := by
  refine .node _ (by decide) fun e he => ?_
  simp only [mdB, List.mem_cons, List.not_mem_nil, or_false] at he
  rcases he with rfl | rfl | rfl
  · refine .node _ (by decide) fun e he => ?_
    simp only [List.mem_cons, List.not_mem_nil, or_false] at he
    subst he
    refine .node _ (by decide) fun e he => ?_
    simp only [List.mem_cons, List.not_mem_nil, or_false] at he
    rcases he with rfl | rfl <;> exact .leaf _
  · exact .node _ (by decide) (by simp)
  · exact .leaf _

example : mergeDicts mdA mdB = .ok (.node
    [("x", .node [("p", .leaf 1), ("q", .node [("r", .leaf 4), ("s", .leaf 5)])]),
      ("y", .leaf 6), ("z", .leaf 9)]) := rfl
/- a conflict: `a` has a number, `b` a dictionary with entries -/
example : mergeDicts [("y", .leaf 3)] [("y", .node [("p", .leaf 1)])] = .error .typeError := rfl
example : Spec.Conflict (.node [("y", .leaf 3)]) (.node [("y", .node [("p", .leaf 1)])]) :=
  ⟨["y"], 3, _, rfl, rfl, by simp⟩
example : Spec.Blocks (.node mdB) ["y", "w"] := ⟨["y"], ⟨["w"], rfl⟩, rfl⟩

end Tespy
