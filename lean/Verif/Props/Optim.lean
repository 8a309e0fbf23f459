import Verif.Model.Optim
import Verif.Props.MergeDicts
import Mathlib.Algebra.Order.Field.Basic
import Mathlib.Algebra.Order.Field.Rat
import Mathlib.Tactic.Linarith
import Mathlib.Tactic.NormNum

/-
C47: order of variables, bounds and constraints of the optimisation problem.
-/
namespace Tespy
namespace Spec

/-- the object at the end of a path of keys -/
def treeAt {α : Type} : PTree α → List String → Option (PTree α)
  | t, [] => some t
  | .leaf _, _ :: _ => none
  | .node d, k :: p =>
    match Dict.get? d k with
    | some t => treeAt t p
    | none => none

/-- the entries of a dictionary, none for other values -/
def entries {α : Type} : PTree α → List (String × PTree α)
  | .leaf _ => []
  | .node d => d

/-- The variables of an optimisation problem in the order of the dictionaries: object, label and
parameter for connections and components, object and label for everything else. -/
def varPaths {α : Type} (vars : List (String × PTree α)) : List (List String) :=
  vars.flatMap fun o => (entries o.2).flatMap fun l =>
    if o.1 = "Connections" ∨ o.1 = "Components" then
      (entries l.2).map fun p => [o.1, l.1, p.1]
    else [[o.1, l.1]]

/-- The limits in the order of the dictionaries: address and limit. -/
def limits {α : Type} (cons : List (String × PTree α)) (key : String) :
    List ((String × String × String) × PTree α) :=
  match Dict.get? cons key with
  | none => []
  | some t => (entries t).flatMap fun o => (entries o.2).flatMap fun l =>
      (entries l.2).map fun p => ((o.1, l.1, p.1), p.2)

/-- the value of a limit: a number or the parameter a named constraint refers to -/
def LimitIs {K : Type} (get : String → String → String → PyRes K)
    (cons : List (String × PTree (OVal K))) (c : PTree (OVal K)) (lim : K) : Prop :=
  c = .leaf (.num lim) ∨
    ∃ s o l p, c = .leaf (.str s) ∧ Dict.get? cons s = some (.leaf (.addr o l p)) ∧
      get o l p = .ok lim

end Spec

open PTree
variable {K : Type}

/-! ## Names and bounds -/

theorem hasParams_iff (obj : String) :
    hasParams obj = true ↔ obj = "Connections" ∨ obj = "Components" := by
  simp [hasParams]

theorem VarInfo.add_ok {i i' : VarInfo K} {name : String} {e : PTree (OVal K)}
    (h : i.add name e = .ok i') :
    ∃ lo hi, Spec.treeAt e ["min"] = some lo ∧ Spec.treeAt e ["max"] = some hi ∧
      i' = ⟨i.names ++ [name], i.lower ++ [lo], i.upper ++ [hi]⟩ := by
  unfold VarInfo.add at h
  cases e with
  | leaf a => simp [PTree.getItem] at h
  | node d =>
    simp only [PTree.getItem, Dict.getItem] at h
    cases h1 : Dict.get? d "min" with
    | none => simp [h1] at h
    | some lo =>
      cases h2 : Dict.get? d "max" with
      | none => simp [h1, h2] at h
      | some hi =>
        simp only [h1, h2, Except.ok.injEq] at h
        exact ⟨lo, hi, by simp [Spec.treeAt, h1], by simp [Spec.treeAt, h2], h.symm⟩

/-- names and bounds appended for a list of paths, with lookup function `look` -/
def InfoExt (look : List String → Option (PTree (OVal K))) (ps : List (List String))
    (i i' : VarInfo K) : Prop :=
  ∃ lo hi, i'.names = i.names ++ ps.map ("-".intercalate ·) ∧ i'.lower = i.lower ++ lo ∧
    i'.upper = i.upper ++ hi ∧
    List.Forall₂ (fun p b => look (p ++ ["min"]) = some b) ps lo ∧
    List.Forall₂ (fun p b => look (p ++ ["max"]) = some b) ps hi

theorem InfoExt.nil (look : List String → Option (PTree (OVal K))) (i : VarInfo K) :
    InfoExt look [] i i := ⟨[], [], by simp, by simp, by simp, .nil, .nil⟩

theorem InfoExt.append {look : List String → Option (PTree (OVal K))} {ps qs : List (List String)}
    {i i' i'' : VarInfo K} (h1 : InfoExt look ps i i') (h2 : InfoExt look qs i' i'') :
    InfoExt look (ps ++ qs) i i'' := by
  obtain ⟨lo, hi, a1, a2, a3, a4, a5⟩ := h1
  obtain ⟨lo', hi', b1, b2, b3, b4, b5⟩ := h2
  refine ⟨lo ++ lo', hi ++ hi', ?_, ?_, ?_, List.rel_append a4 b4, List.rel_append a5 b5⟩
  · rw [b1, a1]; simp
  · rw [b2, a2]; simp
  · rw [b3, a3]; simp

theorem InfoExt.congr {look look' : List String → Option (PTree (OVal K))}
    {ps : List (List String)} {i i' : VarInfo K} (h : InfoExt look ps i i')
    (hl : ∀ p ∈ ps, ∀ s, look' (p ++ [s]) = look (p ++ [s])) : InfoExt look' ps i i' := by
  obtain ⟨lo, hi, a1, a2, a3, a4, a5⟩ := h
  refine ⟨lo, hi, a1, a2, a3, ?_, ?_⟩
  · exact (List.forall₂_iff_get.2 ⟨a4.length_eq, fun j h1 h2 => by
      rw [hl _ (List.get_mem _ _)]; exact (List.forall₂_iff_get.1 a4).2 j h1 h2⟩)
  · exact (List.forall₂_iff_get.2 ⟨a5.length_eq, fun j h1 h2 => by
      rw [hl _ (List.get_mem _ _)]; exact (List.forall₂_iff_get.1 a5).2 j h1 h2⟩)

theorem intercalate_two (a b : String) : "-".intercalate [a, b] = a ++ "-" ++ b := by
  rfl

theorem intercalate_three (a b c : String) :
    "-".intercalate [a, b, c] = a ++ "-" ++ b ++ "-" ++ c := by
  rfl

theorem infoParams_ok (obj label : String) (all ps : List (String × PTree (OVal K)))
    (look : List String → Option (PTree (OVal K)))
    (hlook : ∀ q s t, Dict.get? all q = some t → look ([obj, label, q] ++ [s]) = Spec.treeAt t [s])
    (hsub : ∀ e ∈ ps, Dict.get? all e.1 = some e.2) :
    ∀ i i', infoParams obj label ps i = .ok i' →
      InfoExt look (ps.map fun p => [obj, label, p.1]) i i' := by
  induction ps with
  | nil =>
    intro i i' h
    simp only [infoParams, Except.ok.injEq] at h
    subst h
    exact InfoExt.nil _ _
  | cons e ps ih =>
    intro i i' h
    obtain ⟨param, t⟩ := e
    simp only [infoParams] at h
    cases h1 : i.add (obj ++ "-" ++ label ++ "-" ++ param) t with
    | error er => simp [h1] at h
    | ok i1 =>
      simp only [h1] at h
      obtain ⟨lo, hi, a1, a2, rfl⟩ := VarInfo.add_ok h1
      have ht := hsub (param, t) (by simp)
      have hfirst : InfoExt look [[obj, label, param]] i
          ⟨i.names ++ [obj ++ "-" ++ label ++ "-" ++ param], i.lower ++ [lo], i.upper ++ [hi]⟩ :=
        ⟨[lo], [hi], by simp only [List.map_cons, List.map_nil, intercalate_three], rfl, rfl,
          .cons ((hlook param "min" t ht).trans a1) .nil,
          .cons ((hlook param "max" t ht).trans a2) .nil⟩
      exact hfirst.append (ih (fun e he => hsub e (by simp [he])) _ _ h)

theorem infoLabels_ok (obj : String) (all ls : List (String × PTree (OVal K)))
    (look : List String → Option (PTree (OVal K)))
    (hlook : ∀ q p t, Dict.get? all q = some t → look (obj :: q :: p) = Spec.treeAt t p)
    (hsub : ∀ e ∈ ls, Dict.get? all e.1 = some e.2) (hw : ∀ e ∈ ls, Spec.WF e.2) :
    ∀ i i', infoLabels obj ls i = .ok i' →
      InfoExt look (ls.flatMap fun l =>
        if obj = "Connections" ∨ obj = "Components" then
          (Spec.entries l.2).map fun p => [obj, l.1, p.1]
        else [[obj, l.1]]) i i' := by
  induction ls with
  | nil =>
    intro i i' h
    simp only [infoLabels, Except.ok.injEq] at h
    subst h
    exact InfoExt.nil _ _
  | cons e ls ih =>
    intro i i' h
    obtain ⟨label, t⟩ := e
    have ht := hsub (label, t) (by simp)
    have ih' := ih (fun e he => hsub e (by simp [he])) (fun e he => hw e (by simp [he]))
    rw [infoLabels] at h
    rw [List.flatMap_cons]
    by_cases hp : hasParams obj = true
    · rw [if_pos hp] at h
      simp only [(hasParams_iff obj).1 hp, if_true] at ih' ⊢
      cases t with
      | leaf a => simp [PTree.items] at h
      | node ps =>
        simp only [PTree.items] at h
        cases h1 : infoParams obj label ps i with
        | error er => simp [h1] at h
        | ok i1 =>
          simp only [h1] at h
          have hn : (Dict.keys ps).Nodup := by
            have := hw (label, .node ps) (by simp)
            cases this; assumption
          refine InfoExt.append (i' := i1) ?_ (ih' i1 i' h)
          refine infoParams_ok obj label ps ps look ?_
            (fun e he => Dict.get?_of_mem hn he) i i1 h1
          intro q s t hq
          have := hlook label [q, s] _ ht
          simpa [Spec.treeAt, hq] using this
    · rw [if_neg hp] at h
      simp only [mt (hasParams_iff obj).2 hp, if_false] at ih' ⊢
      cases h1 : i.add (obj ++ "-" ++ label) t with
      | error er => simp [h1] at h
      | ok i1 =>
        simp only [h1] at h
        obtain ⟨lo, hi, a1, a2, rfl⟩ := VarInfo.add_ok h1
        refine InfoExt.append ?_ (ih' _ i' h)
        exact ⟨[lo], [hi], by simp only [List.map_cons, List.map_nil, intercalate_two], rfl, rfl,
          .cons ((hlook label ["min"] t ht).trans a1) .nil,
          .cons ((hlook label ["max"] t ht).trans a2) .nil⟩

theorem infoObjs_ok (all os : List (String × PTree (OVal K)))
    (hsub : ∀ e ∈ os, Dict.get? all e.1 = some e.2) (hw : ∀ e ∈ os, Spec.WF e.2) :
    ∀ i i', infoObjs os i = .ok i' →
      InfoExt (Spec.treeAt (.node all)) (Spec.varPaths os) i i' := by
  induction os with
  | nil =>
    intro i i' h
    simp only [infoObjs, Except.ok.injEq] at h
    subst h
    exact InfoExt.nil _ _
  | cons e os ih =>
    intro i i' h
    obtain ⟨obj, t⟩ := e
    have ht := hsub (obj, t) (by simp)
    rw [infoObjs] at h
    cases t with
    | leaf a => simp [PTree.items] at h
    | node ls =>
      simp only [PTree.items] at h
      have hwl := hw (obj, .node ls) (by simp)
      have hn : (Dict.keys ls).Nodup ∧ ∀ e ∈ ls, Spec.WF e.2 := by
        cases hwl; constructor <;> assumption
      cases h1 : infoLabels obj ls i with
      | error er => simp [h1] at h
      | ok i1 =>
        simp only [h1] at h
        refine InfoExt.append (i' := i1) ?_
          (ih (fun e he => hsub e (by simp [he])) (fun e he => hw e (by simp [he])) i1 i' h)
        refine infoLabels_ok obj ls ls _ ?_ (fun e he => Dict.get?_of_mem hn.1 he) hn.2 i i1 h1
        intro q p t hq
        simp [Spec.treeAt, ht, hq]

/-! ## Writing the decision vector -/

/-- every object has labels, and every label of a connection or component has parameters -/
def Shaped (vars : List (String × PTree (OVal K))) : Prop :=
  ∀ o ∈ vars, ∃ ls, o.2 = .node ls ∧
    (hasParams o.1 = true → ∀ l ∈ ls, ∃ ps, l.2 = .node ps)

theorem applyParams_ok (ps : List (String × PTree (OVal K))) :
    ∀ x : List K, ps.length ≤ x.length →
      applyParams ps x = .ok
        (List.zipWith (fun p a => (p.1, .leaf (.num a))) ps x, x.drop ps.length) := by
  induction ps with
  | nil => intro x _; simp [applyParams]
  | cons e ps ih =>
    intro x hx
    obtain ⟨param, t⟩ := e
    cases x with
    | nil => simp at hx
    | cons a x => simp [applyParams, nextX, ih x (by simpa using hx)]

theorem applyParams_err (ps : List (String × PTree (OVal K))) :
    ∀ x : List K, x.length < ps.length → applyParams ps x = .error .indexError := by
  induction ps with
  | nil => intro x hx; simp at hx
  | cons e ps ih =>
    intro x hx
    obtain ⟨param, t⟩ := e
    cases x with
    | nil => simp [applyParams, nextX]
    | cons a x => simp [applyParams, nextX, ih x (by simpa using hx)]

/-- what `fitness` does to a level of dictionaries: same keys, same paths, values from `x` -/
structure Applied (get : List (String × PTree (OVal K)) → List (List String))
    (old new : List (String × PTree (OVal K))) (x rest : List K) : Prop where
  keys : Dict.keys new = Dict.keys old
  wf : Spec.WF (.node old) → Spec.WF (.node new)
  paths : get new = get old
  split : ∃ used, x = used ++ rest ∧
    (Spec.WF (.node old) →
      List.Forall₂ (fun p a => Spec.leafAt (.node new) p = some (.num a)) (get old) used)

theorem keys_zip (ps : List (String × PTree (OVal K))) (x : List K) (hx : ps.length ≤ x.length) :
    Dict.keys (List.zipWith (fun p a => (p.1, PTree.leaf (OVal.num a))) ps x) = Dict.keys ps := by
  induction ps generalizing x with
  | nil => simp [Dict.keys]
  | cons e ps ih =>
    cases x with
    | nil => simp at hx
    | cons a x =>
      have := ih x (by simpa using hx)
      simpa [Dict.keys] using this

theorem applyParams_applied (ps : List (String × PTree (OVal K))) (x : List K)
    (hx : ps.length ≤ x.length) :
    Applied (fun d => d.map fun p => [p.1]) ps
      (List.zipWith (fun p a => (p.1, .leaf (.num a))) ps x) x (x.drop ps.length) := by
  have hk := keys_zip ps x hx
  refine ⟨hk, fun hw => ?_, ?_, x.take ps.length, by simp, fun hw => ?_⟩
  · refine .node _ (by rw [hk]; cases hw; assumption) fun e he => ?_
    rw [List.mem_iff_getElem] at he
    obtain ⟨j, hj, rfl⟩ := he
    simp only [List.getElem_zipWith]
    exact .leaf _
  · have : ∀ d : List (String × PTree (OVal K)),
        d.map (fun p => [p.1]) = (Dict.keys d).map (fun k => [k]) := by
      intro d; simp [Dict.keys]
    simp only [this, hk]
  · have hn : (Dict.keys (List.zipWith (fun p a => (p.1, PTree.leaf (OVal.num a))) ps x)).Nodup := by
      rw [hk]; cases hw; assumption
    rw [List.forall₂_iff_get]
    refine ⟨by simp; omega, fun j h1 h2 => ?_⟩
    simp only [List.length_map] at h1
    have hm : (ps[j].1, PTree.leaf (OVal.num x[j]))
        ∈ List.zipWith (fun p a => (p.1, PTree.leaf (OVal.num a))) ps x := by
      rw [List.mem_iff_getElem]
      exact ⟨j, by simp; omega, by simp⟩
    have hg := Dict.get?_of_mem hn hm
    simp [Spec.leafAt, hg]

theorem leafAt_cons_of_get {α : Type} {d : List (String × PTree α)} {k : String} {t : PTree α}
    (h : Dict.get? d k = some t) (p : List String) :
    Spec.leafAt (.node d) (k :: p) = Spec.leafAt t p := by
  simp [Spec.leafAt, h]

/-- adding one entry in front of a level -/
theorem Applied.cons {get : List (String × PTree (OVal K)) → List (List String)}
    {get1 : String → PTree (OVal K) → List (List String)}
    (hget : ∀ e d, get (e :: d) = (get1 e.1 e.2).map (e.1 :: ·) ++ get d)
    (hhead : ∀ d, ∀ p ∈ get d, ∃ k ∈ Dict.keys d, ∃ q, p = k :: q)
    {k : String} {told tnew : PTree (OVal K)} {old new : List (String × PTree (OVal K))}
    {x used r rest : List K}
    (hwf : Spec.WF told → Spec.WF tnew) (hpaths : get1 k tnew = get1 k told)
    (hx : x = used ++ r)
    (hval : Spec.WF told →
      List.Forall₂ (fun p a => Spec.leafAt tnew p = some (.num a)) (get1 k told) used)
    (h : Applied get old new r rest) :
    Applied get ((k, told) :: old) ((k, tnew) :: new) x rest := by
  obtain ⟨a1, a2, a3, used', a4, a5⟩ := h
  refine ⟨by simpa [Dict.keys] using a1, fun hw => ?_, ?_, used ++ used', ?_, fun hw => ?_⟩
  · cases hw with
    | node _ hn hw2 =>
      have hold : Spec.WF (.node old) := by
        refine .node _ ?_ (fun e he => hw2 e (by simp [he]))
        simpa [Dict.keys] using (List.nodup_cons.1 hn).2
      have hnew := a2 hold
      refine .node _ ?_ fun e he => ?_
      · have : Dict.keys ((k, tnew) :: new) = Dict.keys ((k, told) :: old) := by
          simpa [Dict.keys] using a1
        rw [this]; exact hn
      · rcases List.mem_cons.1 he with rfl | he
        · exact hwf (hw2 (k, told) (by simp))
        · cases hnew with
          | node _ _ h3 => exact h3 e he
  · rw [hget, hget, hpaths, a3]
  · rw [hx, a4]; simp
  · rw [hget]
    cases hw with
    | node _ hn hw2 =>
      have hold : Spec.WF (.node old) := by
        refine .node _ ?_ (fun e he => hw2 e (by simp [he]))
        simpa [Dict.keys] using (List.nodup_cons.1 hn).2
      have hk : k ∉ Dict.keys old := by
        simpa [Dict.keys] using (List.nodup_cons.1 hn).1
      refine List.rel_append ?_ ?_
      · rw [List.forall₂_map_left_iff]
        refine (hval (hw2 (k, told) (by simp))).imp fun p a hpa => ?_
        rw [leafAt_cons_of_get (t := tnew) (by simp [Dict.get?])]
        exact hpa
      · have h5 := a5 hold
        rw [List.forall₂_iff_get] at h5 ⊢
        refine ⟨h5.1, fun j h1 h2 => ?_⟩
        have hj := h5.2 j h1 h2
        obtain ⟨k', hk', q, hq⟩ := hhead old _ (List.get_mem (get old) ⟨j, h1⟩)
        rw [hq] at hj ⊢
        have hne : k' ≠ k := fun hh => hk (hh ▸ hk')
        simp only [Spec.leafAt, Dict.get?, if_neg hne] at hj ⊢
        exact hj

/-- paths below one object -/
def labelPaths (obj : String) (ls : List (String × PTree (OVal K))) : List (List String) :=
  ls.flatMap fun l =>
    if obj = "Connections" ∨ obj = "Components" then (Spec.entries l.2).map fun p => [l.1, p.1]
    else [[l.1]]

theorem labelPaths_head (obj : String) (d : List (String × PTree (OVal K))) :
    ∀ p ∈ labelPaths obj d, ∃ k ∈ Dict.keys d, ∃ q, p = k :: q := by
  intro p hp
  simp only [labelPaths, List.mem_flatMap] at hp
  obtain ⟨l, hl, hp⟩ := hp
  refine ⟨l.1, List.mem_map_of_mem (f := Prod.fst) hl, ?_⟩
  split at hp
  · obtain ⟨q, _, rfl⟩ := List.mem_map.1 hp
    exact ⟨_, rfl⟩
  · simp at hp
    exact ⟨[], hp⟩

theorem varPaths_eq (vars : List (String × PTree (OVal K))) :
    Spec.varPaths vars = vars.flatMap fun o => (labelPaths o.1 (Spec.entries o.2)).map (o.1 :: ·) := by
  unfold Spec.varPaths labelPaths
  congr 1
  funext o
  rw [List.map_flatMap]
  congr 1
  funext l
  split <;> simp

theorem varPaths_head (d : List (String × PTree (OVal K))) :
    ∀ p ∈ Spec.varPaths d, ∃ k ∈ Dict.keys d, ∃ q, p = k :: q := by
  intro p hp
  rw [varPaths_eq, List.mem_flatMap] at hp
  obtain ⟨o, ho, hp⟩ := hp
  obtain ⟨q, _, rfl⟩ := List.mem_map.1 hp
  exact ⟨o.1, List.mem_map_of_mem (f := Prod.fst) ho, q, rfl⟩

theorem Applied.nil (get : List (String × PTree (OVal K)) → List (List String))
    (hg : get [] = []) (x : List K) : Applied get [] [] x x :=
  ⟨rfl, id, rfl, [], by simp, fun _ => by rw [hg]; exact .nil⟩

theorem applyLabels_applied (obj : String) (ls : List (String × PTree (OVal K)))
    (hs : hasParams obj = true → ∀ l ∈ ls, ∃ ps, l.2 = .node ps) :
    ∀ x : List K,
      ((labelPaths obj ls).length ≤ x.length →
        ∃ new, applyLabels obj ls x = .ok (new, x.drop (labelPaths obj ls).length) ∧
          Applied (labelPaths obj) ls new x (x.drop (labelPaths obj ls).length) ∧
          (hasParams obj = true → ∀ l ∈ new, ∃ ps, l.2 = .node ps)) ∧
      (x.length < (labelPaths obj ls).length → applyLabels obj ls x = .error .indexError) := by
  induction ls with
  | nil =>
    intro x
    refine ⟨fun _ => ⟨[], by simp [applyLabels, labelPaths], ?_, by simp⟩, by simp [labelPaths]⟩
    simpa [labelPaths] using Applied.nil (labelPaths obj) rfl x
  | cons e ls ih =>
    intro x
    obtain ⟨label, t⟩ := e
    have ih' := ih (fun hp l hl => hs hp l (by simp [hl]))
    by_cases hp : hasParams obj = true
    · obtain ⟨ps, rfl⟩ := hs hp (label, t) (by simp)
      have hoc := (hasParams_iff obj).1 hp
      have hlen : (labelPaths obj ((label, .node ps) :: ls)).length
          = ps.length + (labelPaths obj ls).length := by
        simp [labelPaths, hoc, Spec.entries]
      rw [hlen]
      have happ : ∀ x : List K, applyLabels obj ((label, .node ps) :: ls) x =
          match applyParams ps x with
          | .error e => .error e
          | .ok a =>
            match applyLabels obj ls a.2 with
            | .error e => .error e
            | .ok out => .ok ((label, .node a.1) :: out.1, out.2) := by
        intro x
        rw [applyLabels, if_pos hp]
        rfl
      refine ⟨fun hx => ?_, fun hx => ?_⟩
      · have h1 := applyParams_ok ps x (by omega)
        obtain ⟨new, hn1, hn2, hn3⟩ := (ih' (x.drop ps.length)).1 (by simp; omega)
        rw [List.drop_drop] at hn1 hn2
        refine ⟨(label, .node (List.zipWith (fun p a => (p.1, .leaf (.num a))) ps x)) :: new,
          ?_, ?_, ?_⟩
        · rw [happ, h1]
          simp only [hn1]
        · have hpa := applyParams_applied ps x (by omega)
          obtain ⟨used, hu1, hu2⟩ := hpa.split
          refine Applied.cons (get := labelPaths obj)
            (get1 := fun _ t => (Spec.entries t).map fun p => [p.1])
            ?_ (labelPaths_head obj) ?_ ?_ hu1 ?_ hn2
          · intro e d
            simp [labelPaths, hoc]
          · intro hw; exact hpa.wf hw
          · exact hpa.paths
          · intro hw
            exact hu2 hw
        · intro _ l hl
          rcases List.mem_cons.1 hl with rfl | hl
          · exact ⟨_, rfl⟩
          · exact hn3 hp l hl
      · rw [happ]
        by_cases hx2 : x.length < ps.length
        · rw [applyParams_err ps x hx2]
        · rw [applyParams_ok ps x (by omega)]
          simp only [(ih' (x.drop ps.length)).2 (by simp; omega)]
    · have hoc : ¬ (obj = "Connections" ∨ obj = "Components") := mt (hasParams_iff obj).2 hp
      have hlen : (labelPaths obj ((label, t) :: ls)).length
          = 1 + (labelPaths obj ls).length := by
        simp [labelPaths, hoc]; omega
      rw [hlen]
      have happ : ∀ x : List K, applyLabels obj ((label, t) :: ls) x =
          match nextX x with
          | .error e => .error e
          | .ok ax =>
            match applyLabels obj ls ax.2 with
            | .error e => .error e
            | .ok out => .ok ((label, .leaf (.num ax.1)) :: out.1, out.2) := by
        intro x
        rw [applyLabels, if_neg hp]
        rfl
      cases x with
      | nil =>
        refine ⟨fun hx => by simp at hx, fun _ => ?_⟩
        rw [happ]; rfl
      | cons a x =>
        refine ⟨fun hx => ?_, fun hx => ?_⟩
        · obtain ⟨new, hn1, hn2, hn3⟩ := (ih' x).1 (by simp at hx; omega)
          have hd : List.drop (1 + (labelPaths obj ls).length) (a :: x)
              = x.drop (labelPaths obj ls).length := by
            rw [Nat.add_comm]; rfl
          rw [hd]
          refine ⟨(label, .leaf (.num a)) :: new, ?_, ?_, fun h => absurd h hp⟩
          · rw [happ]
            simp only [nextX, hn1]
          · refine Applied.cons (get := labelPaths obj) (get1 := fun _ _ => [[]])
              (used := [a]) (r := x) ?_ (labelPaths_head obj) ?_ rfl rfl ?_ hn2
            · intro e d
              simp [labelPaths, hoc]
            · intro _; exact .leaf _
            · intro _; exact .cons rfl .nil
        · rw [happ]
          simp only [nextX, (ih' x).2 (by simp at hx; omega)]

theorem applyObjs_applied (os : List (String × PTree (OVal K))) (hs : Shaped os) :
    ∀ x : List K,
      ((Spec.varPaths os).length ≤ x.length →
        ∃ new, applyObjs os x = .ok (new, x.drop (Spec.varPaths os).length) ∧
          Applied Spec.varPaths os new x (x.drop (Spec.varPaths os).length) ∧ Shaped new) ∧
      (x.length < (Spec.varPaths os).length → applyObjs os x = .error .indexError) := by
  induction os with
  | nil =>
    intro x
    refine ⟨fun _ => ⟨[], by simp [applyObjs, Spec.varPaths], ?_, by simp [Shaped]⟩,
      by simp [Spec.varPaths]⟩
    simpa [Spec.varPaths] using Applied.nil Spec.varPaths rfl x
  | cons e os ih =>
    intro x
    obtain ⟨obj, t⟩ := e
    have ih' := ih (fun o ho => hs o (by simp [ho]))
    obtain ⟨ls, rfl, hls⟩ := hs (obj, t) (by simp)
    simp only at hls
    have hlen : (Spec.varPaths ((obj, .node ls) :: os)).length
        = (labelPaths obj ls).length + (Spec.varPaths os).length := by
      simp [varPaths_eq, Spec.entries]
    rw [hlen]
    have happ : ∀ x : List K, applyObjs ((obj, .node ls) :: os) x =
        match applyLabels obj ls x with
        | .error e => .error e
        | .ok a =>
          match applyObjs os a.2 with
          | .error e => .error e
          | .ok out => .ok ((obj, .node a.1) :: out.1, out.2) := by
      intro x
      rw [applyObjs]
      rfl
    have hl := applyLabels_applied obj ls hls x
    refine ⟨fun hx => ?_, fun hx => ?_⟩
    · obtain ⟨newl, h1, h2, h3⟩ := hl.1 (by omega)
      obtain ⟨new, hn1, hn2, hn3⟩ := (ih' (x.drop (labelPaths obj ls).length)).1 (by simp; omega)
      rw [List.drop_drop] at hn1 hn2
      refine ⟨(obj, .node newl) :: new, ?_, ?_, ?_⟩
      · rw [happ, h1]
        simp only [hn1]
      · obtain ⟨used, hu1, hu2⟩ := h2.split
        refine Applied.cons (get := Spec.varPaths)
          (get1 := fun o t => labelPaths o (Spec.entries t)) ?_ varPaths_head ?_ ?_ hu1 ?_ hn2
        · intro e d
          simp [varPaths_eq]
        · intro hw; exact h2.wf hw
        · exact h2.paths
        · intro hw; exact hu2 hw
      · intro o ho
        rcases List.mem_cons.1 ho with rfl | ho
        · exact ⟨newl, rfl, h3⟩
        · exact hn3 o ho
    · rw [happ]
      by_cases hx2 : x.length < (labelPaths obj ls).length
      · rw [hl.2 hx2]
      · obtain ⟨newl, h1, _, _⟩ := hl.1 (by omega)
        rw [h1]
        simp only [(ih' (x.drop (labelPaths obj ls).length)).2 (by simp; omega)]

/-! ## Constraints -/

section
variable [Field K]

theorem evalConstraint_ok {get : String → String → String → PyRes K}
    {cs : List (String × PTree (OVal K))} {upper : Bool} {obj label param : String}
    {c : PTree (OVal K)} {v : K} (h : evalConstraint get cs upper obj label param c = .ok v) :
    ∃ lim val, Spec.LimitIs get cs c lim ∧ get obj label param = .ok val ∧
      v = if upper then -(lim - val) else lim - val := by
  have key : ∀ (l : PyRes K), (∀ lim, l = .ok lim → Spec.LimitIs get cs c lim) →
      (match l with
        | .error e => (.error e : PyRes K)
        | .ok lim =>
          match get obj label param with
          | .error e => .error e
          | .ok v => .ok (if upper then -(lim - v) else lim - v)) = .ok v →
      ∃ lim val, Spec.LimitIs get cs c lim ∧ get obj label param = .ok val ∧
        v = if upper then -(lim - val) else lim - val := by
    intro l hl hv
    cases l with
    | error e => simp at hv
    | ok lim =>
      cases hg : get obj label param with
      | error e => simp [hg] at hv
      | ok w =>
        simp only [hg] at hv
        exact ⟨lim, w, hl lim rfl, rfl, (Except.ok.inj hv).symm⟩
  refine key _ ?_ h
  intro lim hlim
  match c, hlim with
  | .leaf (.num x), hlim => exact Or.inl (by rw [← Except.ok.inj hlim])
  | .leaf (.str s), hlim =>
    simp only [Dict.getItem] at hlim
    cases hs : Dict.get? cs s with
    | none => simp [hs] at hlim
    | some t =>
      simp only [hs] at hlim
      match t, hs, hlim with
      | .leaf (.addr o l p), hs, hlim => exact Or.inr ⟨s, o, l, p, rfl, hs, hlim⟩
  
theorem evalParams_ok (get : String → String → String → PyRes K)
    (cs : List (String × PTree (OVal K))) (upper : Bool) (obj label : String)
    (ps : List (String × PTree (OVal K))) : ∀ vs, evalParams get cs upper obj label ps = .ok vs →
    List.Forall₂ (fun c v => evalConstraint get cs upper c.1.1 c.1.2.1 c.1.2.2 c.2 = .ok v)
      (ps.map fun p => ((obj, label, p.1), p.2)) vs := by
  induction ps with
  | nil => intro vs h; simp only [evalParams, Except.ok.injEq] at h; subst h; exact .nil
  | cons e ps ih =>
    intro vs h
    obtain ⟨param, c⟩ := e
    rw [evalParams] at h
    cases h1 : evalConstraint get cs upper obj label param c with
    | error er => simp [h1] at h
    | ok v =>
      simp only [h1] at h
      cases h2 : evalParams get cs upper obj label ps with
      | error er => simp [h2] at h
      | ok vs' =>
        simp only [h2, Except.ok.injEq] at h
        subst h
        exact .cons h1 (ih vs' h2)

theorem evalLabels_ok (get : String → String → String → PyRes K)
    (cs : List (String × PTree (OVal K))) (upper : Bool) (obj : String)
    (ls : List (String × PTree (OVal K))) : ∀ vs, evalLabels get cs upper obj ls = .ok vs →
    List.Forall₂ (fun c v => evalConstraint get cs upper c.1.1 c.1.2.1 c.1.2.2 c.2 = .ok v)
      (ls.flatMap fun l => (Spec.entries l.2).map fun p => ((obj, l.1, p.1), p.2)) vs := by
  induction ls with
  | nil => intro vs h; simp only [evalLabels, Except.ok.injEq] at h; subst h; exact .nil
  | cons e ls ih =>
    intro vs h
    obtain ⟨label, t⟩ := e
    rw [evalLabels] at h
    cases t with
    | leaf a => simp [PTree.items] at h
    | node ps =>
      simp only [PTree.items] at h
      cases h1 : evalParams get cs upper obj label ps with
      | error er => simp [h1] at h
      | ok v =>
        simp only [h1] at h
        cases h2 : evalLabels get cs upper obj ls with
        | error er => simp [h2] at h
        | ok vs' =>
          simp only [h2, Except.ok.injEq] at h
          subst h
          exact List.rel_append (evalParams_ok get cs upper obj label ps v h1) (ih vs' h2)

theorem evalObjs_ok (get : String → String → String → PyRes K)
    (cs : List (String × PTree (OVal K))) (upper : Bool)
    (os : List (String × PTree (OVal K))) : ∀ vs, evalObjs get cs upper os = .ok vs →
    List.Forall₂ (fun c v => evalConstraint get cs upper c.1.1 c.1.2.1 c.1.2.2 c.2 = .ok v)
      (os.flatMap fun o => (Spec.entries o.2).flatMap fun l =>
        (Spec.entries l.2).map fun p => ((o.1, l.1, p.1), p.2)) vs := by
  induction os with
  | nil => intro vs h; simp only [evalObjs, Except.ok.injEq] at h; subst h; exact .nil
  | cons e os ih =>
    intro vs h
    obtain ⟨obj, t⟩ := e
    rw [evalObjs] at h
    cases t with
    | leaf a => simp [PTree.items] at h
    | node ls =>
      simp only [PTree.items] at h
      cases h1 : evalLabels get cs upper obj ls with
      | error er => simp [h1] at h
      | ok v =>
        simp only [h1] at h
        cases h2 : evalObjs get cs upper os with
        | error er => simp [h2] at h
        | ok vs' =>
          simp only [h2, Except.ok.injEq] at h
          subst h
          exact List.rel_append (evalLabels_ok get cs upper obj ls v h1) (ih vs' h2)

theorem collect_ok (get : String → String → String → PyRes K)
    (cs : List (String × PTree (OVal K))) (upper : Bool) (vs : List K)
    (h : collectConstraints get cs upper = .ok vs) :
    List.Forall₂ (fun c v => ∃ lim val, Spec.LimitIs get cs c.2 lim ∧
        get c.1.1 c.1.2.1 c.1.2.2 = .ok val ∧ v = if upper then -(lim - val) else lim - val)
      (Spec.limits cs (borderKey upper)) vs := by
  unfold collectConstraints limitItems Dict.getItem at h
  unfold Spec.limits
  cases hg : Dict.get? cs (borderKey upper) with
  | none => simp [hg] at h
  | some t =>
    cases t with
    | leaf a => simp [hg, PTree.items] at h
    | node os =>
      simp only [hg, PTree.items] at h
      exact (evalObjs_ok get cs upper os vs h).imp fun c v hcv => evalConstraint_ok hcv

end

theorem buildParams_len (fmt : K → String) (cs : List (String × PTree (OVal K))) (upper : Bool)
    (obj label : String) (ps : List (String × PTree (OVal K))) :
    ∀ acc out, buildParams fmt cs upper obj label ps acc = .ok out →
      ∃ names, out = acc ++ names ∧
        List.Forall₂ (fun c n => ∃ r, n = c.1.1 ++ "-" ++ c.1.2.1 ++ "-" ++ c.1.2.2 ++
            (if upper then "<=" else ">=") ++ r ∧ rightSide fmt cs c.2 = .ok r)
          (ps.map fun p => ((obj, label, p.1), p.2)) names := by
  induction ps with
  | nil =>
    intro acc out h
    simp only [buildParams, Except.ok.injEq] at h
    exact ⟨[], by simp [h], .nil⟩
  | cons e ps ih =>
    intro acc out h
    obtain ⟨param, c⟩ := e
    rw [buildParams] at h
    cases h1 : rightSide fmt cs c with
    | error er => simp [h1] at h
    | ok r =>
      simp only [h1] at h
      obtain ⟨names, hn1, hn2⟩ := ih _ _ h
      exact ⟨_ :: names, by rw [hn1, List.append_assoc]; rfl, .cons ⟨r, rfl, h1⟩ hn2⟩

theorem buildLabels_len (fmt : K → String) (cs : List (String × PTree (OVal K))) (upper : Bool)
    (obj : String) (ls : List (String × PTree (OVal K))) :
    ∀ acc out, buildLabels fmt cs upper obj ls acc = .ok out →
      ∃ names, out = acc ++ names ∧
        List.Forall₂ (fun c n => ∃ r, n = c.1.1 ++ "-" ++ c.1.2.1 ++ "-" ++ c.1.2.2 ++
            (if upper then "<=" else ">=") ++ r ∧ rightSide fmt cs c.2 = .ok r)
          (ls.flatMap fun l => (Spec.entries l.2).map fun p => ((obj, l.1, p.1), p.2)) names := by
  induction ls with
  | nil =>
    intro acc out h
    simp only [buildLabels, Except.ok.injEq] at h
    exact ⟨[], by simp [h], .nil⟩
  | cons e ls ih =>
    intro acc out h
    obtain ⟨label, t⟩ := e
    rw [buildLabels] at h
    cases t with
    | leaf a => simp [PTree.items] at h
    | node ps =>
      simp only [PTree.items] at h
      cases h1 : buildParams fmt cs upper obj label ps acc with
      | error er => simp [h1] at h
      | ok a =>
        simp only [h1] at h
        obtain ⟨n1, rfl, hn1⟩ := buildParams_len fmt cs upper obj label ps acc a h1
        obtain ⟨n2, rfl, hn2⟩ := ih _ _ h
        exact ⟨n1 ++ n2, by simp, List.rel_append hn1 hn2⟩

theorem buildObjs_len (fmt : K → String) (cs : List (String × PTree (OVal K))) (upper : Bool)
    (os : List (String × PTree (OVal K))) :
    ∀ acc out, buildObjs fmt cs upper os acc = .ok out →
      ∃ names, out = acc ++ names ∧
        List.Forall₂ (fun c n => ∃ r, n = c.1.1 ++ "-" ++ c.1.2.1 ++ "-" ++ c.1.2.2 ++
            (if upper then "<=" else ">=") ++ r ∧ rightSide fmt cs c.2 = .ok r)
          (os.flatMap fun o => (Spec.entries o.2).flatMap fun l =>
            (Spec.entries l.2).map fun p => ((o.1, l.1, p.1), p.2)) names := by
  induction os with
  | nil =>
    intro acc out h
    simp only [buildObjs, Except.ok.injEq] at h
    exact ⟨[], by simp [h], .nil⟩
  | cons e os ih =>
    intro acc out h
    obtain ⟨obj, t⟩ := e
    rw [buildObjs] at h
    cases t with
    | leaf a => simp [PTree.items] at h
    | node ls =>
      simp only [PTree.items] at h
      cases h1 : buildLabels fmt cs upper obj ls acc with
      | error er => simp [h1] at h
      | ok a =>
        simp only [h1] at h
        obtain ⟨n1, rfl, hn1⟩ := buildLabels_len fmt cs upper obj ls acc a h1
        obtain ⟨n2, rfl, hn2⟩ := ih _ _ h
        exact ⟨n1 ++ n2, by simp, List.rel_append hn1 hn2⟩

theorem build_len (fmt : K → String) (cs : List (String × PTree (OVal K))) (upper : Bool)
    (acc out : List String) (h : buildConstraints fmt cs upper acc = .ok out) :
    ∃ names, out = acc ++ names ∧
      List.Forall₂ (fun c n => ∃ r, n = c.1.1 ++ "-" ++ c.1.2.1 ++ "-" ++ c.1.2.2 ++
          (if upper then "<=" else ">=") ++ r ∧ rightSide fmt cs c.2 = .ok r)
        (Spec.limits cs (borderKey upper)) names := by
  unfold buildConstraints limitItems Dict.getItem at h
  unfold Spec.limits
  cases hg : Dict.get? cs (borderKey upper) with
  | none => simp [hg] at h
  | some t =>
    cases t with
    | leaf a => simp [hg, PTree.items] at h
    | node os =>
      simp only [hg, PTree.items] at h
      exact buildObjs_len fmt cs upper os acc out h

/-! ## The default structure -/

theorem set_self {α : Type} {d : List (String × PTree α)} {k : String} {t : PTree α}
    (h : Dict.get? d k = some t) : Dict.set d k t = d := by
  induction d with
  | nil => simp [Dict.get?] at h
  | cons e d ih =>
    obtain ⟨k', t'⟩ := e
    simp only [Dict.get?] at h
    simp only [Dict.set]
    split
    · rename_i hk
      rw [if_pos hk] at h
      simp_all
    · rename_i hk
      rw [if_neg hk] at h
      rw [ih h]

/-- merging an empty dictionary into a dictionary adds nothing but an empty entry -/
theorem merge_empty_entry {α : Type} (d d2 : List (String × PTree α)) (k : String) :
    ∃ new : List (String × PTree α), (∀ e ∈ new, e.2 = .node []) ∧
      mergeInto (.node d) ((k, .node []) :: d2) = mergeInto (.node (d ++ new)) d2 := by
  rw [mergeInto_step]
  simp only [mergedAt, mergeInto]
  cases h : Dict.get? d k with
  | some t => exact ⟨[], by simp, by simp [set_self h]⟩
  | none =>
    refine ⟨[(k, .node [])], by simp, ?_⟩
    rw [Dict.set_of_not_mem _ ((Dict.get?_eq_none_iff d k).1 h)]
    rfl

theorem merge_defaultVariables (d : List (String × PTree (OVal K))) (r : PTree (OVal K))
    (h : mergeInto (.node d) defaultVariables = .ok r) :
    ∃ new, (∀ e ∈ new, e.2 = .node []) ∧ r = .node (d ++ new) := by
  unfold defaultVariables at h
  obtain ⟨n1, h1, e1⟩ := merge_empty_entry d [("Components", .node [])] "Connections"
  obtain ⟨n2, h2, e2⟩ := merge_empty_entry (d ++ n1) [] "Components"
  rw [e1, e2] at h
  simp only [mergeInto, Except.ok.injEq] at h
  exact ⟨n1 ++ n2, by intro e he; exact (List.mem_append.1 he).elim (h1 e) (h2 e),
    by rw [← h]; simp⟩

theorem varPaths_append_empty {α : Type} (d new : List (String × PTree α))
    (hn : ∀ e ∈ new, e.2 = .node []) : Spec.varPaths (d ++ new) = Spec.varPaths d := by
  unfold Spec.varPaths
  rw [List.flatMap_append]
  have : (new.flatMap fun o => (Spec.entries o.2).flatMap fun l =>
      if o.1 = "Connections" ∨ o.1 = "Components" then
        (Spec.entries l.2).map fun p => [o.1, l.1, p.1]
      else [[o.1, l.1]]) = [] := by
    rw [List.flatMap_eq_nil_iff]
    intro e he
    rw [hn e he]
    rfl
  rw [this, List.append_nil]

theorem defaultVariables_wf : Spec.WF (.node (defaultVariables (K := K))) := by
  refine .node _ (show ["Connections", "Components"].Nodup by decide) fun e he => ?_
  simp only [defaultVariables, List.mem_cons, List.not_mem_nil, or_false] at he
  rcases he with rfl | rfl <;> exact .node _ List.nodup_nil (by simp)

theorem limits_merged (c : List (String × PTree (OVal K))) (cs : List (String × PTree (OVal K)))
    (h : mergeDicts c defaultConstraints = .ok (.node cs)) (upper : Bool) :
    Spec.limits cs (borderKey upper) = Spec.limits c (borderKey upper) ∧
      ∀ s o l p, Dict.get? cs s = some (.leaf (.addr o l p)) ↔
        Dict.get? c s = some (.leaf (.addr o l p)) := by
  have hn : (Dict.keys (defaultConstraints (K := K))).Nodup := by
    show ["lower limits", "upper limits"].Nodup
    decide
  obtain ⟨d, hd, hk⟩ := mergeInto_get _ c _ hn h
  cases hd
  have hentry : ∀ k, Dict.get? (defaultConstraints (K := K)) k
      = if k = "lower limits" ∨ k = "upper limits" then some (.node defaultVariables) else none := by
    intro k
    simp only [defaultConstraints, Dict.get?]
    by_cases h1 : k = "lower limits"
    · simp [h1]
    · by_cases h2 : k = "upper limits" <;> simp [h1, h2]
  have hval : ∀ k, k = "lower limits" ∨ k = "upper limits" →
      ∃ m, mergeInto ((Dict.get? c k).getD (.node [])) defaultVariables = .ok m ∧
        Dict.get? cs k = some m := by
    intro k hkk
    have := hk k
    rw [hentry, if_pos hkk] at this
    exact this
  constructor
  · have hb : borderKey upper = "lower limits" ∨ borderKey upper = "upper limits" := by
      cases upper <;> simp [borderKey]
    obtain ⟨m, hm, hg⟩ := hval _ hb
    unfold Spec.limits
    rw [hg]
    cases hc : Dict.get? c (borderKey upper) with
    | none =>
      rw [hc] at hm
      obtain ⟨new, hnew, rfl⟩ := merge_defaultVariables [] m hm
      simp only [List.nil_append, Spec.entries]
      rw [List.flatMap_eq_nil_iff]
      intro e he
      rw [hnew e he]; rfl
    | some t =>
      rw [hc] at hm
      cases t with
      | leaf a => have := (mergeInto_leaf a _ _ hm).1; simp [defaultVariables] at this
      | node os =>
        obtain ⟨new, hnew, rfl⟩ := merge_defaultVariables os m hm
        show List.flatMap _ (os ++ new) = List.flatMap _ os
        rw [List.flatMap_append]
        have : (new.flatMap fun o => (Spec.entries o.2).flatMap fun l =>
            (Spec.entries l.2).map fun p => ((o.1, l.1, p.1), p.2)) = [] := by
          rw [List.flatMap_eq_nil_iff]
          intro e he
          rw [hnew e he]; rfl
        rw [this, List.append_nil]
  · intro s o l p
    have := hk s
    rw [hentry] at this
    by_cases hs : s = "lower limits" ∨ s = "upper limits"
    · obtain ⟨m, hm, hg⟩ := hval s hs
      rw [hg]
      cases hc : Dict.get? c s with
      | none =>
        rw [hc] at hm
        obtain ⟨new, _, rfl⟩ := merge_defaultVariables [] m hm
        simp
      | some t =>
        rw [hc] at hm
        cases t with
        | leaf a => have := (mergeInto_leaf a _ _ hm).1; simp [defaultVariables] at this
        | node os =>
          obtain ⟨new, _, rfl⟩ := merge_defaultVariables os m hm
          simp
    · rw [if_neg hs] at this
      rw [this]

/-! ## The problem and its histories -/

theorem Problem.init_ok {fmt : K → String} {vars cons : List (String × PTree (OVal K))}
    {p : Problem K} (h : Problem.init fmt vars cons = .ok p) :
    ∃ vs u, mergeDicts vars defaultVariables = .ok (.node vs) ∧
      mergeDicts cons defaultConstraints = .ok (.node p.constraints) ∧ p.vars = vs ∧
      infoObjs vs ⟨[], [], []⟩ = .ok p.info ∧
      buildConstraints fmt p.constraints true [] = .ok u ∧
      buildConstraints fmt p.constraints false u = .ok p.constraintList ∧
      p.nic = p.constraintList.length := by
  unfold Problem.init at h
  cases h1 : mergeDicts vars defaultVariables with
  | error e => simp [h1] at h
  | ok vt =>
    simp only [h1] at h
    cases h2 : mergeDicts cons defaultConstraints with
    | error e => simp [h2] at h
    | ok ct =>
      simp only [h2] at h
      cases vt with
      | leaf a => simp [PTree.items] at h
      | node vs =>
        cases ct with
        | leaf a => simp [PTree.items] at h
        | node cs =>
          simp only [PTree.items] at h
          cases h3 : infoObjs vs ⟨[], [], []⟩ with
          | error e => simp [h3] at h
          | ok info =>
            simp only [h3] at h
            cases h4 : buildConstraints fmt cs true [] with
            | error e => simp [h4] at h
            | ok u =>
              simp only [h4] at h
              cases h5 : buildConstraints fmt cs false u with
              | error e => simp [h5] at h
              | ok ul =>
                simp only [h5, Except.ok.injEq] at h
                subst h
                exact ⟨vs, u, rfl, rfl, rfl, h3, h4, h5, rfl⟩

/-- **C47, variables and bounds.** The names of the variables are the addresses in the order of
the user's dictionary, and the `i`-th bounds are the `min` and `max` given for the `i`-th
variable. -/
theorem C47_variables (fmt : K → String) (vars cons : List (String × PTree (OVal K)))
    (p : Problem K) (hw : Spec.WF (.node vars)) (h : Problem.init fmt vars cons = .ok p) :
    p.info.names = (Spec.varPaths vars).map ("-".intercalate ·) ∧
      List.Forall₂ (fun path b => Spec.treeAt (.node vars) (path ++ ["min"]) = some b)
        (Spec.varPaths vars) p.info.lower ∧
      List.Forall₂ (fun path b => Spec.treeAt (.node vars) (path ++ ["max"]) = some b)
        (Spec.varPaths vars) p.info.upper := by
  obtain ⟨vs, u, h1, h2, h3, h4, h5, h6, h7⟩ := Problem.init_ok h
  obtain ⟨new, hnew, hvs⟩ := merge_defaultVariables vars _ h1
  cases hvs
  have hn : (Dict.keys vars).Nodup ∧ ∀ e ∈ vars, Spec.WF e.2 := by
    cases hw; constructor <;> assumption
  -- the empty entries contribute nothing
  have hsplit : ∀ (os : List (String × PTree (OVal K))) i i', infoObjs (os ++ new) i = .ok i' →
      infoObjs os i = .ok i' := by
    have hempty : ∀ (n : List (String × PTree (OVal K))) i i', (∀ e ∈ n, e.2 = .node []) →
        infoObjs n i = .ok i' → i' = i := by
      intro n
      induction n with
      | nil => intro i i' _ h; simpa [infoObjs, eq_comm] using h
      | cons e n ih =>
        intro i i' hh h
        obtain ⟨k, t⟩ := e
        have ht : t = .node [] := hh (k, t) (by simp)
        subst ht
        simp only [infoObjs, PTree.items, infoLabels] at h
        exact ih i i' (fun e he => hh e (by simp [he])) h
    intro os
    induction os with
    | nil => intro i i' h; rw [hempty new i i' hnew h]; rfl
    | cons e os ih =>
      intro i i' h
      obtain ⟨k, t⟩ := e
      rw [List.cons_append, infoObjs] at h
      rw [infoObjs]
      cases ht : t.items with
      | error er => simp [ht] at h
      | ok ls =>
        simp only [ht] at h ⊢
        cases hl : infoLabels k ls i with
        | error er => simp [hl] at h
        | ok i1 =>
          simp only [hl] at h ⊢
          exact ih i1 i' h
  have := infoObjs_ok vars vars (fun e he => Dict.get?_of_mem hn.1 he) hn.2 _ _
    (hsplit vars _ _ h4)
  obtain ⟨lo, hi, a1, a2, a3, a4, a5⟩ := this
  simp only [List.nil_append] at a1 a2 a3
  exact ⟨a1, a2 ▸ a4, a3 ▸ a5⟩

section
variable [Field K]

/-- Any sequence of calls of `fitness` on a problem. -/
inductive Spec.Reached (fmt : K → String) (vars cons : List (String × PTree (OVal K))) :
    Problem K → Prop
  | init (p : Problem K) : Problem.init fmt vars cons = .ok p → Spec.Reached fmt vars cons p
  | fitness (p p' : Problem K) (solve : List (String × PTree (OVal K)) → PyRes (ModelRes K))
      (x : List K) (out : List (String × PTree (OVal K)) × List K) :
      Spec.Reached fmt vars cons p → p.fitness solve x = .ok (p', out) →
      Spec.Reached fmt vars cons p'

theorem infoObjs_shaped (os : List (String × PTree (OVal K))) : ∀ i i',
    infoObjs os i = .ok i' → Shaped os := by
  induction os with
  | nil => intro _ _ _ o ho; simp at ho
  | cons e os ih =>
    intro i i' h o ho
    obtain ⟨obj, t⟩ := e
    rw [infoObjs] at h
    cases t with
    | leaf a => simp [PTree.items] at h
    | node ls =>
      simp only [PTree.items] at h
      cases hl : infoLabels obj ls i with
      | error er => simp [hl] at h
      | ok i1 =>
        simp only [hl] at h
        rcases List.mem_cons.1 ho with rfl | ho
        · refine ⟨ls, rfl, fun hp => ?_⟩
          clear h ih
          induction ls generalizing i i1 with
          | nil => intro l hl; simp at hl
          | cons e' ls ihl =>
            obtain ⟨label, t'⟩ := e'
            rw [infoLabels, if_pos hp] at hl
            cases t' with
            | leaf a => simp [PTree.items] at hl
            | node ps =>
              simp only [PTree.items] at hl
              cases h1 : infoParams obj label ps i with
              | error er => simp [h1] at hl
              | ok i2 =>
                simp only [h1] at hl
                intro l hl'
                rcases List.mem_cons.1 hl' with rfl | hl'
                · exact ⟨ps, rfl⟩
                · exact ihl i2 i1 hl (by simp) hp l hl'
        · exact ih i1 i' h o ho

theorem fitness_ok {p p' : Problem K}
    {solve : List (String × PTree (OVal K)) → PyRes (ModelRes K)} {x : List K}
    {D : List (String × PTree (OVal K))} {f : List K} (h : p.fitness solve x = .ok (p', D, f)) :
    ∃ rest res obj cu cl, applyObjs p.vars x = .ok (D, rest) ∧ solve D = .ok res ∧
      res.objective = .ok obj ∧ collectConstraints res.param p.constraints true = .ok cu ∧
      collectConstraints res.param p.constraints false = .ok cl ∧
      p' = { p with vars := D } ∧ f = obj :: (cu ++ cl) := by
  unfold Problem.fitness at h
  cases h1 : applyObjs p.vars x with
  | error e => simp [h1] at h
  | ok a =>
    simp only [h1] at h
    cases h2 : solve a.1 with
    | error e => simp [h2] at h
    | ok res =>
      simp only [h2] at h
      cases h3 : res.objective with
      | error e => simp [h3] at h
      | ok o =>
        simp only [h3] at h
        cases h4 : collectConstraints res.param p.constraints true with
        | error e => simp [h4] at h
        | ok cu =>
          simp only [h4] at h
          cases h5 : collectConstraints res.param p.constraints false with
          | error e => simp [h5] at h
          | ok cl =>
            simp only [h5, Except.ok.injEq, Prod.mk.injEq] at h
            obtain ⟨rfl, rfl, rfl⟩ := h
            exact ⟨a.2, res, o, cu, cl, rfl, h2, h3, h4, h5, rfl, rfl⟩

/-- everything that is constant over the calls of `fitness` -/
theorem reached_inv (fmt : K → String) (vars cons : List (String × PTree (OVal K)))
    (p : Problem K) (hw : Spec.WF (.node vars)) (h : Spec.Reached fmt vars cons p) :
    Spec.WF (.node p.vars) ∧ Shaped p.vars ∧ Spec.varPaths p.vars = Spec.varPaths vars ∧
      ∃ p0, Problem.init fmt vars cons = .ok p0 ∧ p.constraints = p0.constraints ∧
        p.info = p0.info ∧ p.constraintList = p0.constraintList ∧ p.nic = p0.nic := by
  induction h with
  | init p hi =>
    obtain ⟨vs, u, h1, h2, h3, h4, h5, h6, h7⟩ := Problem.init_ok hi
    obtain ⟨new, hnew, hvs⟩ := merge_defaultVariables vars _ h1
    cases hvs
    have hshape := infoObjs_shaped _ _ _ h4
    refine ⟨?_, by rw [h3]; exact hshape, by rw [h3, varPaths_append_empty _ _ hnew],
      p, hi, rfl, rfl, rfl, rfl⟩
    rw [h3]
    -- keys stay distinct
    have hn : (Dict.keys vars).Nodup ∧ ∀ e ∈ vars, Spec.WF e.2 := by
      cases hw; constructor <;> assumption
    have hk : (Dict.keys (vars ++ new)).Nodup := by
      have : ∀ (d d2 : List (String × PTree (OVal K))) r, (Dict.keys d).Nodup →
          mergeInto (.node d) d2 = .ok (.node r) → (Dict.keys r).Nodup := by
        intro d d2
        induction d2 generalizing d with
        | nil =>
          intro r hd hr
          simp only [mergeInto, Except.ok.injEq, PTree.node.injEq] at hr
          rw [← hr]; exact hd
        | cons e d2 ih =>
          intro r hd hr
          obtain ⟨k, v⟩ := e
          rw [mergeInto_step] at hr
          cases hm : mergedAt (Dict.get? d k) v with
          | error er => simp [hm] at hr
          | ok m =>
            simp only [hm] at hr
            exact ih _ r (Dict.nodup_keys_set k m hd) hr
      exact this vars defaultVariables _ hn.1 h1
    refine .node _ hk fun e he => ?_
    rcases List.mem_append.1 he with he | he
    · exact hn.2 e he
    · rw [hnew e he]; exact .node _ (by simp [Dict.keys]) (by simp)
  | fitness p p' solve x out _ hf ih =>
    obtain ⟨w, s, pth, p0, q1, q2, q3, q4, q5⟩ := ih
    obtain ⟨D, f⟩ := out
    obtain ⟨rest, res, obj, cu, cl, h1, _, _, _, _, rfl, _⟩ := fitness_ok hf
    have ha := applyObjs_applied p.vars s x
    by_cases hx : (Spec.varPaths p.vars).length ≤ x.length
    · obtain ⟨new, hn1, hn2, hn3⟩ := ha.1 hx
      rw [hn1] at h1
      cases h1
      exact ⟨hn2.wf w, hn3, hn2.paths.trans pth, p0, q1, q2, q3, q4, q5⟩
    · rw [ha.2 (by omega)] at h1
      cases h1

/-- **C47, decision vector.** In every call of `fitness`, after any history of calls, the model is
solved with a dictionary that has the `i`-th entry of the decision vector at the address of the
`i`-th variable (the order of `variable_list` and of the bounds) and the same entries as the
user's dictionary. -/
theorem C47_decision_vector (fmt : K → String) (vars cons : List (String × PTree (OVal K)))
    (p p' : Problem K) (hw : Spec.WF (.node vars)) (h : Spec.Reached fmt vars cons p)
    (solve : List (String × PTree (OVal K)) → PyRes (ModelRes K)) (x : List K)
    (hx : x.length = (Spec.varPaths vars).length) (D : List (String × PTree (OVal K)))
    (f : List K) (hf : p.fitness solve x = .ok (p', D, f)) :
    List.Forall₂ (fun path a => Spec.leafAt (.node D) path = some (.num a))
        (Spec.varPaths vars) x ∧
      Spec.varPaths D = Spec.varPaths vars ∧ ∃ res, solve D = .ok res := by
  obtain ⟨w, s, pth, _⟩ := reached_inv fmt vars cons p hw h
  obtain ⟨rest, res, obj, cu, cl, h1, h2, _⟩ := fitness_ok hf
  obtain ⟨new, hn1, hn2, hn3⟩ := (applyObjs_applied p.vars s x).1 (by rw [pth, hx])
  rw [hn1] at h1
  cases h1
  obtain ⟨used, hu1, hu2⟩ := hn2.split
  have hr : x.drop (Spec.varPaths p.vars).length = [] := by
    rw [List.drop_eq_nil_iff, pth, hx]
  rw [hr, List.append_nil] at hu1
  subst hu1
  refine ⟨?_, hn2.paths.trans pth, res, h2⟩
  have := hu2 w
  rwa [pth] at this

/-- **C47.** A decision vector that is too short is rejected; a vector of the right length is
always written to the dictionary. -/
theorem C47_length (fmt : K → String) (vars cons : List (String × PTree (OVal K)))
    (p : Problem K) (hw : Spec.WF (.node vars)) (h : Spec.Reached fmt vars cons p)
    (solve : List (String × PTree (OVal K)) → PyRes (ModelRes K)) (x : List K) :
    (x.length < p.info.names.length → p.fitness solve x = .error .indexError) ∧
      (p.info.names.length ≤ x.length → ∃ D rest, applyObjs p.vars x = .ok (D, rest)) := by
  obtain ⟨w, s, pth, p0, q1, q2, q3, q4, q5⟩ := reached_inv fmt vars cons p hw h
  have hlen : p.info.names.length = (Spec.varPaths p.vars).length := by
    rw [q3, (C47_variables fmt vars cons p0 hw q1).1, pth]; simp
  have ha := applyObjs_applied p.vars s x
  rw [hlen]
  refine ⟨fun hx => ?_, fun hx => ?_⟩
  · unfold Problem.fitness
    rw [ha.2 hx]
  · obtain ⟨new, hn1, _⟩ := ha.1 hx
    exact ⟨_, _, hn1⟩

/-- **C47, fitness vector.** The fitness vector consists of the objective, the values of the upper
limits and the values of the lower limits in the order of the user's dictionaries, after any
history of calls. Each value is the difference of parameter and limit with the sign that makes it
non-positive exactly if the limit holds. -/
theorem C47_fitness [LinearOrder K] [IsStrictOrderedRing K] (fmt : K → String)
    (vars cons : List (String × PTree (OVal K))) (p p' : Problem K) (hw : Spec.WF (.node vars))
    (h : Spec.Reached fmt vars cons p)
    (solve : List (String × PTree (OVal K)) → PyRes (ModelRes K)) (x : List K)
    (D : List (String × PTree (OVal K))) (f : List K) (hf : p.fitness solve x = .ok (p', D, f)) :
    ∃ res obj cu cl, solve D = .ok res ∧ res.objective = .ok obj ∧ f = obj :: (cu ++ cl) ∧
      List.Forall₂ (fun c v => ∃ lim val, Spec.LimitIs res.param cons c.2 lim ∧
          res.param c.1.1 c.1.2.1 c.1.2.2 = .ok val ∧ v = val - lim ∧ (v ≤ 0 ↔ val ≤ lim))
        (Spec.limits cons "upper limits") cu ∧
      List.Forall₂ (fun c v => ∃ lim val, Spec.LimitIs res.param cons c.2 lim ∧
          res.param c.1.1 c.1.2.1 c.1.2.2 = .ok val ∧ v = lim - val ∧ (v ≤ 0 ↔ lim ≤ val))
        (Spec.limits cons "lower limits") cl := by
  obtain ⟨w, s, pth, p0, q1, q2, q3, q4, q5⟩ := reached_inv fmt vars cons p hw h
  obtain ⟨vs, u, i1, i2, i3, i4, i5, i6, i7⟩ := Problem.init_ok q1
  obtain ⟨rest, res, obj, cu, cl, h1, h2, h3, h4, h5, _, h7⟩ := fitness_ok hf
  rw [q2] at h4 h5
  have hl := fun u => limits_merged cons p0.constraints i2 u
  have hlim : ∀ c lim, Spec.LimitIs res.param p0.constraints c lim →
      Spec.LimitIs res.param cons c lim := by
    rintro c lim (hc | ⟨s, o, l, q, hc, hs, hg⟩)
    · exact Or.inl hc
    · exact Or.inr ⟨s, o, l, q, hc, ((hl true).2 s o l q).1 hs, hg⟩
  refine ⟨res, obj, cu, cl, h2, h3, h7, ?_, ?_⟩
  · have := collect_ok res.param p0.constraints true cu h4
    rw [(hl true).1] at this
    refine this.imp fun c v hcv => ?_
    obtain ⟨lim, val, a1, a2, a3⟩ := hcv
    refine ⟨lim, val, hlim _ _ a1, a2, by rw [a3]; simp, ?_⟩
    rw [a3]
    simp
  · have := collect_ok res.param p0.constraints false cl h5
    rw [(hl false).1] at this
    refine this.imp fun c v hcv => ?_
    obtain ⟨lim, val, a1, a2, a3⟩ := hcv
    refine ⟨lim, val, hlim _ _ a1, a2, by rw [a3]; simp, ?_⟩
    rw [a3]
    simp

/-- **C47.** The names of the constraints are in the order of the fitness vector and `get_nic` is
their number. -/
theorem C47_constraint_names (fmt : K → String) (vars cons : List (String × PTree (OVal K)))
    (p : Problem K) (hw : Spec.WF (.node vars)) (h : Spec.Reached fmt vars cons p) :
    ∃ nu nl, p.constraintList = nu ++ nl ∧ p.nic = nu.length + nl.length ∧
      List.Forall₂ (fun c n => ∃ r, n = c.1.1 ++ "-" ++ c.1.2.1 ++ "-" ++ c.1.2.2 ++ "<=" ++ r)
        (Spec.limits cons "upper limits") nu ∧
      List.Forall₂ (fun c n => ∃ r, n = c.1.1 ++ "-" ++ c.1.2.1 ++ "-" ++ c.1.2.2 ++ ">=" ++ r)
        (Spec.limits cons "lower limits") nl := by
  obtain ⟨w, s, pth, p0, q1, q2, q3, q4, q5⟩ := reached_inv fmt vars cons p hw h
  obtain ⟨vs, u, i1, i2, i3, i4, i5, i6, i7⟩ := Problem.init_ok q1
  obtain ⟨nu, hu1, hu2⟩ := build_len fmt _ true [] u i5
  obtain ⟨nl, hl1, hl2⟩ := build_len fmt _ false u _ i6
  rw [List.nil_append] at hu1
  subst hu1
  have hl := fun u => limits_merged cons p0.constraints i2 u
  rw [(hl true).1] at hu2
  rw [(hl false).1] at hl2
  refine ⟨u, nl, by rw [q4, hl1], by rw [q5, i7, hl1]; simp, ?_, ?_⟩
  · exact hu2.imp fun c n ⟨r, hr, _⟩ => ⟨r, by simpa using hr⟩
  · exact hl2.imp fun c n ⟨r, hr, _⟩ => ⟨r, by simpa using hr⟩

end

/-! ## Example -/

def opVars : List (String × PTree (OVal ℚ)) :=
  [("Connections", .node [("2", .node [("p", .node [("min", .leaf (.num 1)), ("max", .leaf (.num 40))])]),
      ("4", .node [("p", .node [("min", .leaf (.num 2)), ("max", .leaf (.num 50))]),
        ("T", .node [("max", .leaf (.num 600)), ("min", .leaf (.num 300))])])]),
    ("ext", .node [("area", .node [("min", .leaf (.num 5)), ("max", .leaf (.num 9))])])]

def opCons : List (String × PTree (OVal ℚ)) :=
  [("lower limits", .node [("Connections", .node [("4", .node [("p", .leaf (.str "ref1"))])])]),
    ("ref1", .leaf (.addr "Connections" "2" "p"))]

theorem opVars_wf : Spec.WF (.node opVars) := by
  have hmm : ∀ a b : ℚ, Spec.WF (α := OVal ℚ)
      (.node [("min", .leaf (.num a)), ("max", .leaf (.num b))]) := by
    intro a b
    refine .node _ (show ["min", "max"].Nodup by decide) fun e he => ?_
    simp only [List.mem_cons, List.not_mem_nil, or_false] at he
    rcases he with rfl | rfl <;> exact .leaf _
  refine .node _ (by decide) fun e he => ?_
  simp only [opVars, List.mem_cons, List.not_mem_nil, or_false] at he
  rcases he with rfl | rfl
  · refine .node _ (by decide) fun e he => ?_
    simp only [List.mem_cons, List.not_mem_nil, or_false] at he
    rcases he with rfl | rfl
    · refine .node _ (by decide) fun e he => ?_
      simp only [List.mem_cons, List.not_mem_nil, or_false] at he
      subst he
      exact hmm _ _
    · refine .node _ (by decide) fun e he => ?_
      simp only [List.mem_cons, List.not_mem_nil, or_false] at he
      rcases he with rfl | rfl
      · exact hmm _ _
      · refine .node _ (by decide) fun e he => ?_
        simp only [List.mem_cons, List.not_mem_nil, or_false] at he
        rcases he with rfl | rfl <;> exact .leaf _
  · refine .node _ (by decide) fun e he => ?_
    simp only [List.mem_cons, List.not_mem_nil, or_false] at he
    subst he
    exact hmm _ _

example : Spec.varPaths opVars =
    [["Connections", "2", "p"], ["Connections", "4", "p"], ["Connections", "4", "T"],
      ["ext", "area"]] := by decide +kernel

/-- the model of the example: parameters 4-p = 30 and 2-p = 10 -/
def opRes : ModelRes ℚ :=
  ⟨fun _ l _ => if l = "2" then .ok 10 else .ok 30, .ok 7⟩

/- the lower limit 4-p >= 2-p holds: value 10 - 30 -/
example : (match Problem.init (fun _ => "1") opVars opCons with
    | .error _ => none
    | .ok p =>
      match p.fitness (fun _ => .ok opRes) [10, 30, 500, 6] with
      | .error _ => none
      | .ok out => some (p.nic, p.info.names, out.2.2)) =
    some (1, ["Connections-2-p", "Connections-4-p", "Connections-4-T", "ext-area"],
      [7, -20]) := by decide +kernel

end Tespy
