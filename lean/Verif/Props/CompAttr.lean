import Mathlib.Algebra.Order.Field.Rat
import Mathlib.Data.List.TakeWhile
import Verif.Model.Component
/-
C29: the specification rules of `Component.set_attr`, for every sequence of calls.
-/
namespace Tespy
variable {K : Type} [DecidableEq K]

/-! ### specification -/

/-- What the user sees of a parameter. -/
structure Spec.Obs (K : Type) where
  isSet : PyV K
  isVar : PyV K
  val : PyV K
  char : PyV K
  deriving DecidableEq

/-- one entry of a dictionary -/
def Spec.put (o : Spec.Obs K) (e : String × PyV K) : Spec.Obs K :=
  if e.1 = "is_set" then { o with isSet := e.2 }
  else if e.1 = "is_var" then { o with isVar := e.2 }
  else if e.1 = "val" then { o with val := e.2 }
  else if e.1 = "char_func" then { o with char := e.2 }
  else o

/-- a number: `float` accepts it -/
def Spec.number : PyV K → Prop
  | .num _ | .bool _ | .numStr _ => True
  | _ => False
instance : DecidablePred (Spec.number (K := K)) := fun v => by cases v <;> unfold Spec.number <;> infer_instance

/-- a characteristic line or map -/
def Spec.isChar : PyV K → Prop
  | .charLine _ | .charMap _ => True
  | _ => False
instance : DecidablePred (Spec.isChar (K := K)) := fun v => by cases v <;> unfold Spec.isChar <;> infer_instance

/-- The documented effect of an argument on a parameter of the given kind; arguments which
are rejected have no effect. Entries of a dictionary count up to the first unknown one. -/
def Spec.effect (kind : DcKind) (o : Spec.Obs K) : CArg K → Spec.Obs K
  | .val .none => { o with isSet := .bool false, isVar := if kind = .cp then .bool false else o.isVar }
  | .dict d =>
    if kind = .simple then { o with val := .other 0, isSet := .bool true }
    else (d.takeWhile (fun e => decide (e.1 ∈ kind.attrs))).foldl Spec.put o
  | .val v =>
    match kind with
    | .cp => if Spec.number v then { o with val := v, isSet := .bool true, isVar := .bool false }
             else if v = .str "var" then { o with isSet := .bool true, isVar := .bool true } else o
    | .simple => { o with val := v, isSet := .bool true }
    | .cc | .cm => if Spec.isChar v then { o with char := v } else o
    | .gcp | .gcc => o

/-- what the container stores -/
def Cont.observe (c : Cont K) : Spec.Obs K :=
  ⟨c.attr "is_set", c.attr "is_var", c.attr "val", c.attr "char_func"⟩

/-! ### proofs -/

omit [DecidableEq K] in
theorem observe_update (c : Cont K) (k : String) (v : PyV K) :
    (⟨c.kind, Function.update c.attr k v⟩ : Cont K).observe = Spec.put c.observe (k, v) := by
  unfold Cont.observe Spec.put
  by_cases h1 : k = "is_set"
  · subst h1; simp [Function.update_of_ne]
  by_cases h2 : k = "is_var"
  · subst h2; simp [Function.update_of_ne]
  by_cases h3 : k = "val"
  · subst h3; simp [Function.update_of_ne]
  by_cases h4 : k = "char_func"
  · subst h4; simp [Function.update_of_ne]
  have g : ∀ s, k ≠ s → Function.update c.attr k v s = c.attr s := fun s h => Function.update_of_ne (Ne.symm h) _ _
  simp [h1, h2, h3, h4, g]

omit [DecidableEq K] in
theorem contSetAttr_observe (c : Cont K) (d : List (String × PyV K)) :
    (c.setAttr d).1.observe = (d.takeWhile (fun e => decide (e.1 ∈ c.kind.attrs))).foldl Spec.put c.observe ∧
    (c.setAttr d).1.kind = c.kind := by
  induction d generalizing c with
  | nil => exact ⟨rfl, rfl⟩
  | cons e d ih =>
    obtain ⟨k, v⟩ := e
    unfold Cont.setAttr
    by_cases h : k ∈ c.kind.attrs
    · rw [if_pos h, List.takeWhile_cons_of_pos (by simpa using h)]
      obtain ⟨h1, h2⟩ := ih { c with attr := Function.update c.attr k v }
      refine ⟨?_, h2⟩
      rw [h1, List.foldl_cons]
      congr 1
      exact observe_update c k v
    · rw [if_neg h, List.takeWhile_cons_of_neg (by simpa using h)]
      exact ⟨rfl, rfl⟩

theorem specify_observe (c : Cont K) (arg : CArg K) :
    (c.specify arg).1.observe = Spec.effect c.kind c.observe arg ∧ (c.specify arg).1.kind = c.kind := by
  rcases c with ⟨kind, attr⟩
  cases arg with
  | dict d =>
    unfold Cont.specify Spec.effect
    by_cases h : kind = .simple
    · subst h
      simp only [if_true]
      refine ⟨?_, (contSetAttr_observe _ _).2⟩
      rw [(contSetAttr_observe _ _).1]
      simp [DcKind.attrs, Spec.put]
    · simp only [h, if_false]
      exact contSetAttr_observe _ _
  | val v =>
    have key : ∀ (d : List (String × PyV K)), ((⟨kind, attr⟩ : Cont K).setAttr d).1.observe =
        (d.takeWhile (fun e => decide (e.1 ∈ kind.attrs))).foldl Spec.put (⟨kind, attr⟩ : Cont K).observe ∧
        ((⟨kind, attr⟩ : Cont K).setAttr d).1.kind = kind := fun d => contSetAttr_observe ⟨kind, attr⟩ d
    cases v with
    | none =>
      unfold Cont.specify Spec.effect
      have h2 := contSetAttr_observe ((⟨kind, attr⟩ : Cont K).setAttr [("is_set", .bool false)]).1 [("is_var", .bool false)]
      obtain ⟨k1, k2⟩ := key [("is_set", .bool false)]
      dsimp only
      refine ⟨?_, by rw [h2.2, k2]⟩
      rw [h2.1, k1, k2]
      cases kind <;> simp [DcKind.attrs, Spec.put]
    | num x =>
      cases kind <;> simp [Cont.specify, Spec.effect, PyV.isNumeric, Spec.number, Spec.isChar, Cont.setAttr, DcKind.attrs, Cont.observe]
    | bool x =>
      cases kind <;> simp [Cont.specify, Spec.effect, PyV.isNumeric, Spec.number, Spec.isChar, Cont.setAttr, DcKind.attrs, Cont.observe]
    | numStr x =>
      cases kind <;> simp [Cont.specify, Spec.effect, PyV.isNumeric, Spec.number, Spec.isChar, Cont.setAttr, DcKind.attrs, Cont.observe]
    | str x =>
      cases kind
      case cp =>
        by_cases hx : x = "var"
        · subst hx
          simp [Cont.specify, Spec.effect, PyV.isNumeric, Spec.number, Spec.isChar, Cont.setAttr, DcKind.attrs, Cont.observe]
        · have e1 : (match (PyV.str x : PyV K) with
            | .str "var" => (⟨.cp, attr⟩ : Cont K).setAttr [("is_set", .bool true), ("is_var", .bool true)]
            | _ => (⟨.cp, attr⟩, some .typeError)) = (⟨.cp, attr⟩, some .typeError) := by
            split
            · rename_i h; simp only [PyV.str.injEq] at h; exact absurd h hx
            · rfl
          simp only [Cont.specify, Spec.effect, PyV.isNumeric, Spec.number, Bool.false_eq_true, if_false, e1]
          simp [hx]
      all_goals simp [Cont.specify, Spec.effect, PyV.isNumeric, Spec.number, Spec.isChar, Cont.setAttr, DcKind.attrs, Cont.observe]
    | list x =>
      cases kind <;> simp [Cont.specify, Spec.effect, PyV.isNumeric, Spec.number, Spec.isChar, Cont.setAttr, DcKind.attrs, Cont.observe]
    | charLine x =>
      cases kind <;> simp [Cont.specify, Spec.effect, PyV.isNumeric, Spec.number, Spec.isChar, Cont.setAttr, DcKind.attrs, Cont.observe]
    | charMap x =>
      cases kind <;> simp [Cont.specify, Spec.effect, PyV.isNumeric, Spec.number, Spec.isChar, Cont.setAttr, DcKind.attrs, Cont.observe]
    | other x =>
      cases kind <;> simp [Cont.specify, Spec.effect, PyV.isNumeric, Spec.number, Spec.isChar, Cont.setAttr, DcKind.attrs, Cont.observe]

/-- keyword arguments one after the other, ignoring exceptions -/
def Comp.run (c : Comp K) (kws : List (String × CArg K)) : Comp K :=
  kws.foldl (fun c kw => (c.setKey kw.1 kw.2).1) c

omit [DecidableEq K] in
/-- C29: a call executes its keyword arguments in order up to the first one which raises. -/
theorem C29_call (c : Comp K) (kws : List (String × CArg K)) :
    ((c.setAttr kws).2 = none → (c.setAttr kws).1 = c.run kws) ∧
    ∀ e, (c.setAttr kws).2 = some e → ∃ pre kw post, kws = pre ++ kw :: post ∧
      (c.setAttr kws).1 = c.run (pre ++ [kw]) ∧ ((c.run pre).setKey kw.1 kw.2).2 = some e ∧
      (c.setAttr pre).2 = none := by
  induction kws generalizing c with
  | nil => simp [Comp.setAttr, Comp.run]
  | cons kw kws ih =>
    obtain ⟨k, v⟩ := kw
    rw [Comp.setAttr]
    rcases h : c.setKey k v with ⟨c', o⟩
    cases o with
    | none =>
      dsimp only
      obtain ⟨h1, h2⟩ := ih c'
      constructor
      · intro hn; rw [h1 hn]; simp [Comp.run, h]
      · intro e he
        obtain ⟨pre, kw, post, e1, e2, e3, e4⟩ := h2 e he
        refine ⟨(k, v) :: pre, kw, post, by simp [e1], ?_, ?_, ?_⟩
        · rw [e2]; simp [Comp.run, h]
        · rw [← e3]; simp [Comp.run, h]
        · simp [Comp.setAttr, h, e4]
    | some e =>
      constructor
      · intro hn; simp at hn
      · intro e' he
        refine ⟨[], (k, v), kws, rfl, ?_, ?_, rfl⟩
        · simp [Comp.run, h]
        · simp only [Comp.run, List.foldl_nil, h]; exact he

omit [DecidableEq K] in
theorem setKey_param_ne (c : Comp K) (key p : String) (arg : CArg K) (h : p ≠ key) :
    (c.setKey key arg).1.param p = c.param p := by
  unfold Comp.setKey
  split
  · simp [Function.update_of_ne h]
  · split
    · cases arg with
      | dict d => rfl
      | val v =>
        cases v <;> try rfl
        dsimp only
        split
        · split <;> rfl
        · rfl
    · split
      · cases arg with
        | dict d => rfl
        | val v => cases v <;> rfl
      · split
        · cases arg <;> rfl
        · rfl

/-- C29: after any sequence of keyword arguments, in one or many calls, with or without
exceptions, a parameter is what the arguments given for it say, one after the other;
arguments for other keywords do not touch it. -/
theorem C29_parameter (c : Comp K) (p : String) (d : Cont K) (hd : c.param p = some d)
    (kws : List (String × CArg K)) :
    ∃ d', (c.run kws).param p = some d' ∧ d'.kind = d.kind ∧
      d'.observe = ((kws.filter (fun kw => kw.1 = p)).map Prod.snd).foldl (Spec.effect d.kind) d.observe := by
  induction kws generalizing c d with
  | nil => exact ⟨d, hd, rfl, rfl⟩
  | cons kw kws ih =>
    obtain ⟨k, v⟩ := kw
    by_cases hk : k = p
    · subst hk
      have h1 : (c.setKey k v).1.param k = some (d.specify v).1 := by
        unfold Comp.setKey; rw [hd]; simp
      obtain ⟨d', e1, e2, e3⟩ := ih (c.setKey k v).1 _ h1
      obtain ⟨s1, s2⟩ := specify_observe d v
      refine ⟨d', e1, e2.trans s2, ?_⟩
      rw [e3, s2, s1]
      simp
    · have h1 : (c.setKey k v).1.param p = some d := by
        rw [setKey_param_ne c k p v (Ne.symm hk)]; exact hd
      obtain ⟨d', e1, e2, e3⟩ := ih (c.setKey k v).1 d h1
      refine ⟨d', e1, e2, ?_⟩
      rw [e3]; simp [hk]

omit [DecidableEq K] in
/-- C29: a keyword which is not a parameter and none of the general ones is rejected with a
`KeyError`, the component is unchanged. -/
theorem C29_unknown_rejected (c : Comp K) (key : String) (arg : CArg K) (h : c.param key = none)
    (hk : key ∉ ["design", "offdesign", "local_design", "local_offdesign", "printout", "char_warnings",
      "design_path", "fkt_group"]) : c.setKey key arg = (c, some .keyError) := by
  simp only [List.mem_cons, List.not_mem_nil, or_false, not_or] at hk
  obtain ⟨h1, h2, h3, h4, h5, h6, h7, h8⟩ := hk
  unfold Comp.setKey
  rw [h]
  simp [h1, h2, h3, h4, h5, h6, h7, h8, compFlags]

omit [DecidableEq K] in
/-- C29, the part that holds: for component properties and characteristics a value of a wrong
type is rejected and the parameter is unchanged. Missing: parameter groups (see
`C29_group_ignored`). -/
theorem C29_wrong_type_partial (c : Cont K) (v : PyV K) (hv : v ≠ .none)
    (h : (c.kind = .cp ∧ ¬ Spec.number v ∧ v ≠ .str "var") ∨
      ((c.kind = .cc ∨ c.kind = .cm) ∧ (∀ t, v ≠ .charLine t) ∧ ∀ t, v ≠ .charMap t)) :
    c.specify (.val v) = (c, some .typeError) := by
  rcases c with ⟨kind, attr⟩
  rcases h with ⟨rfl, h1, h2⟩ | ⟨h0, h1, h2⟩
  · cases v <;> simp [Spec.number] at h1 h2 hv ⊢ <;> simp [Cont.specify, PyV.isNumeric]
    rename_i s
    split
    · rename_i h; simp only [PyV.str.injEq] at h; exact absurd h h2
    · rfl
  · rcases h0 with rfl | rfl <;> cases v <;> simp at h1 h2 hv ⊢ <;> simp [Cont.specify]

omit [DecidableEq K] in
/-- C29, refuted part: for a parameter group every value but a dictionary or `None` is
accepted without effect. -/
theorem C29_group_ignored (c : Cont K) (v : PyV K) (hv : v ≠ .none) (h : c.kind = .gcp ∨ c.kind = .gcc) :
    c.specify (.val v) = (c, none) := by
  rcases c with ⟨kind, attr⟩
  rcases h with rfl | rfl <;> cases v <;> simp at hv ⊢ <;> simp [Cont.specify]

omit [DecidableEq K] in
/-- C29, refuted part: nan specifies a component property, it does not remove the
specification (as documented in docs/modules/components.rst 106-107). -/
theorem C29_nan_specifies (c : Cont K) (h : c.kind = .cp) :
    (c.specify (.val (.num none))).2 = none ∧ (c.specify (.val (.num none))).1.attr "is_set" = .bool true ∧
    (c.specify (.val (.num none))).1.attr "val" = .num none := by
  rcases c with ⟨kind, attr⟩
  subst h
  simp [Cont.specify, PyV.isNumeric, Cont.setAttr, DcKind.attrs]

/-- component with the parameters kA (property) and a group -/
def exComp : Comp ℚ where
  param := fun k => if k = "kA" then some ⟨.cp, fun _ => .none⟩ else if k = "kA_group" then some ⟨.gcp, fun _ => .none⟩ else none
  names := ["kA", "kA_group"]
  design := []
  offdesign := []
  flag := fun _ => false
  text := fun _ => .none
  newDesign := true

example : ∃ d, exComp.param "kA" = some d ∧ d.kind = .cp := ⟨_, rfl, rfl⟩
/-- C29, refuted part: a failing call keeps the keywords before the failing one. -/
theorem C29_not_atomic :
    (exComp.setAttr [("kA", .val (.num (some 5))), ("abc", .val .none)]).2 = some .keyError ∧
    ((exComp.setAttr [("kA", .val (.num (some 5))), ("abc", .val .none)]).1.param "kA").map (·.attr "is_set") =
      some (.bool true) := by decide +kernel
example : ((exComp.run [("kA", .val (.str "var")), ("kA", .dict [("min_val", .num (some 1)), ("is_set", .bool false)])]).param "kA").map
    (fun d => (d.attr "is_set", d.attr "is_var", d.attr "min_val")) = some (.bool false, .bool true, .num (some 1)) := by
  decide +kernel

end Tespy
