import Mathlib.Algebra.Order.Field.Rat
import Mathlib.Tactic.Linarith
import Mathlib.Data.List.Infix
import Verif.Model.Connection
import Verif.Lemmas.DictLemmas
/-
C27: the specification rules of `Connection.set_attr`, for every sequence of calls.
-/
namespace Tespy
variable {K R : Type}

/-! ### specification, in terms of the keywords the user writes -/

/-- the keyword of a property -/
def Spec.keyword : PName → String
  | .m => "m" | .p => "p" | .h => "h" | .vol => "vol" | .s => "s" | .T => "T" | .v => "v"
  | .x => "x" | .Td_bp => "Td_bp"

/-- A property is specified or not, with a value: what one keyword argument does to it. -/
def Spec.value (p : PName) (old : Bool × CVal K R) (kw : String × CVal K R) : Bool × CVal K R :=
  if kw.1 = Spec.keyword p then
    match kw.2 with
    | .none => (false, old.2)
    | .num x => (true, .num x)
    | .bool b => (true, .bool b)
    | .numStr s => (true, .numStr s)
    | _ => old
  else old

/-- The same for the starting value. -/
def Spec.start (p : PName) (old : CVal K R) (kw : String × CVal K R) : CVal K R :=
  if kw.1 = Spec.keyword p ++ "0" then
    match kw.2 with
    | .num x => .num x
    | .bool b => .bool b
    | .numStr s => .numStr s
    | _ => old
  else old

/-- The same for the reference of a property. -/
def Spec.reference (p : PName) (old : Bool × Option R) (kw : String × CVal K R) : Bool × Option R :=
  if kw.1 = Spec.keyword p then
    match kw.2 with
    | .none => (false, old.2)
    | .ref r => (true, some r)
    | _ => old
  else old

/-- keywords which are not part of the documented interface: the names of the reference
containers -/
def Spec.internalKeys : List String := ["m_ref", "p_ref", "h_ref", "T_ref", "v_ref"]

/-! ### effect of a sequence of keywords -/

/-- keyword arguments one after the other, ignoring exceptions -/
def Conn.run (c : Conn K R) (kws : List (String × CVal K R)) : Conn K R :=
  kws.foldl (fun c kw => (c.setKey kw.1 kw.2).1) c

/-- C27: a call executes its keyword arguments in order up to the first one which raises. -/
theorem C27_call (c : Conn K R) (kws : List (String × CVal K R)) :
    ((c.setAttr kws).2 = none → (c.setAttr kws).1 = c.run kws) ∧
    ∀ e, (c.setAttr kws).2 = some e → ∃ pre kw post, kws = pre ++ kw :: post ∧
      (c.setAttr kws).1 = c.run (pre ++ [kw]) ∧ ((c.run pre).setKey kw.1 kw.2).2 = some e ∧
      (c.setAttr pre).2 = none := by
  induction kws generalizing c with
  | nil => simp [Conn.setAttr, Conn.run]
  | cons kw kws ih =>
    obtain ⟨k, v⟩ := kw
    rw [Conn.setAttr]
    rcases h : c.setKey k v with ⟨c', o⟩
    cases o with
    | none =>
      dsimp only
      obtain ⟨h1, h2⟩ := ih c'
      constructor
      · intro hn; rw [h1 hn]; simp [Conn.run, h]
      · intro e he
        obtain ⟨pre, kw, post, e1, e2, e3, e4⟩ := h2 e he
        refine ⟨(k, v) :: pre, kw, post, by simp [e1], ?_, ?_, ?_⟩
        · rw [e2]; simp [Conn.run, h]
        · rw [← e3]; simp [Conn.run, h]
        · simp [Conn.setAttr, h, e4]
    | some e =>
      constructor
      · intro hn; simp at hn
      · intro e' he
        refine ⟨[], (k, v), kws, rfl, ?_, ?_, rfl⟩
        · simp [Conn.run, h]
        · simp only [Conn.run, List.foldl_nil, h]; exact he

/-! ### the keywords are recognised -/

theorem parse_keyword (p : PName) : CKey.parse (Spec.keyword p) = .prop p := by
  cases p <;> decide +kernel

theorem parse_keyword0 (p : PName) : CKey.parse (Spec.keyword p ++ "0") = .prop0 p := by
  cases p <;> decide +kernel

theorem mem_pTable {k : String} {p : PName} (h : (k, p) ∈ pTable) : k = Spec.keyword p := by
  simp only [pTable, List.mem_cons, Prod.mk.injEq, List.not_mem_nil, or_false] at h
  rcases h with h | h | h | h | h | h | h | h | h <;> (obtain ⟨rfl, rfl⟩ := h; rfl)

theorem parse_prop {k : String} {p : PName} (h : CKey.parse k = .prop p) : k = Spec.keyword p := by
  unfold CKey.parse at h
  split at h
  · simp at h
  split at h
  · simp at h
  split at h
  · rename_i q hq
    simp only [CKey.prop.injEq] at h
    subst h
    exact mem_pTable (Dict.mem_of_get? hq)
  split at h
  · simp at h
  split at h
  · simp at h
  split at h
  · simp at h
  repeat' (split at h; · simp at h)
  simp at h

theorem parse_prop0 {k : String} {p : PName} (h : CKey.parse k = .prop0 p) : k = Spec.keyword p ++ "0" := by
  unfold CKey.parse at h
  split at h
  · simp at h
  split at h
  · simp at h
  split at h
  · simp at h
  split at h
  · simp at h
  split at h
  · rename_i q hq
    simp only [CKey.prop0.injEq] at h
    subst h
    have := Dict.mem_of_get? hq
    simp only [p0Table, List.mem_map, Prod.mk.injEq] at this
    obtain ⟨⟨a, b⟩, ha, rfl, rfl⟩ := this
    rw [mem_pTable ha]
  split at h
  · simp at h
  repeat' (split at h; · simp at h)
  simp at h

theorem parse_ref {k : String} {r : RName} (h : CKey.parse k = .ref r) : k ∈ Spec.internalKeys := by
  unfold CKey.parse at h
  split at h
  · simp at h
  split at h
  · simp at h
  split at h
  · simp at h
  split at h
  · rename_i q hq
    have := Dict.mem_of_get? hq
    simp only [rTable, List.mem_cons, Prod.mk.injEq, List.not_mem_nil, or_false] at this
    simp only [Spec.internalKeys, List.mem_cons]
    rcases this with h | h | h | h | h <;> simp [h.1]
  split at h
  · simp at h
  split at h
  · simp at h
  repeat' (split at h; · simp at h)
  simp at h

theorem parse_fluid {k k' : String} (h : CKey.parse k = .fluid k') : k' = k := by
  unfold CKey.parse at h
  split at h
  · simp at h
  split at h
  · simp only [CKey.fluid.injEq] at h; exact h.symm
  repeat' (split at h; · simp at h)
  simp at h

theorem keyword_inj {p q : PName} (h : Spec.keyword p = Spec.keyword q) : p = q := by
  have := parse_keyword p
  rw [h, parse_keyword q] at this
  injection this with this; exact this.symm

/-! ### one keyword -/

@[simp] theorem setProp_self (c : Conn K R) (p : PName) (b : PBox K R) : (c.setProp p b).prop p = b := by
  simp [Conn.setProp]
theorem setProp_ne (c : Conn K R) {p q : PName} (b : PBox K R) (h : q ≠ p) : (c.setProp p b).prop q = c.prop q := by
  simp [Conn.setProp, Function.update_of_ne h]
@[simp] theorem setRef_prop (c : Conn K R) (r : RName) (b : RBox R) : (c.setRef r b).prop = c.prop := rfl
@[simp] theorem setProp_ref (c : Conn K R) (p : PName) (b : PBox K R) : (c.setProp p b).ref = c.ref := rfl
@[simp] theorem setRef_self (c : Conn K R) (r : RName) (b : RBox R) : (c.setRef r b).ref r = b := by
  simp [Conn.setRef]
theorem setRef_ne (c : Conn K R) {p q : RName} (b : RBox R) (h : q ≠ p) : (c.setRef p b).ref q = c.ref q := by
  simp [Conn.setRef, Function.update_of_ne h]

theorem fluidSpec_prop (c : Conn K R) (k : String) (v : CVal K R) :
    (c.fluidSpec k v).1.prop = c.prop ∧ (c.fluidSpec k v).1.ref = c.ref := by
  unfold Conn.fluidSpec
  split
  · cases v <;> exact ⟨rfl, rfl⟩
  · cases v <;> try exact ⟨rfl, rfl⟩
    dsimp only
    split
    · exact ⟨rfl, rfl⟩
    · split
      · exact ⟨rfl, rfl⟩
      · split <;> exact ⟨rfl, rfl⟩

/-- The containers of the properties after one keyword. -/
theorem setKey_prop (c : Conn K R) (k : String) (v : CVal K R) :
    (∀ p, CKey.parse k = .prop p → (c.setKey k v).1 = (c.paramProp p v).1) ∧
    (∀ p, CKey.parse k = .prop0 p → (c.setKey k v).1 = (c.paramProp0 p v).1) ∧
    ((∀ p, CKey.parse k ≠ .prop p) → (∀ p, CKey.parse k ≠ .prop0 p) → (c.setKey k v).1.prop = c.prop) := by
  refine ⟨?_, ?_, ?_⟩
  · intro p h; unfold Conn.setKey; rw [h]
  · intro p h; unfold Conn.setKey; rw [h]
  · intro h1 h2
    unfold Conn.setKey
    cases hk : CKey.parse k with
    | prop p => exact absurd hk (h1 p)
    | prop0 p => exact absurd hk (h2 p)
    | fluid k' => exact (fluidSpec_prop c k' v).1
    | ref r =>
      dsimp only [Conn.paramRef]
      cases v <;> first | rfl | (simp [CVal.isNumeric])
    | ref0 r =>
      dsimp only [Conn.paramRef0]
      cases v <;> first | rfl | (simp [CVal.isNumeric])
    | state =>
      cases v <;> first | rfl | (dsimp only; split <;> rfl)
    | design =>
      cases v <;> first | rfl | (dsimp only; split <;> rfl)
    | offdesign =>
      cases v <;> first | rfl | (dsimp only; split <;> rfl)
    | printout => cases v <;> rfl
    | localDesign => cases v <;> rfl
    | localOffdesign => cases v <;> rfl
    | label => rfl
    | designPath => rfl
    | mixingRule => rfl
    | unknown => rfl

theorem paramProp_self (c : Conn K R) (p : PName) (v : CVal K R) :
    let b := (c.paramProp p v).1.prop p
    (b.isSet, b.val) = Spec.value p ((c.prop p).isSet, (c.prop p).val) (Spec.keyword p, v) ∧
    b.val0 = (c.prop p).val0 := by
  intro b
  cases v <;> simp only [Spec.value, if_true] <;> simp only [b, Conn.paramProp]
  case none => cases hr : p.ref <;> simp
  case ref r => cases hr : p.ref <;> simp
  all_goals simp [CVal.isNumeric]

theorem paramProp_ne (c : Conn K R) {p q : PName} (v : CVal K R) (h : q ≠ p) :
    (c.paramProp p v).1.prop q = c.prop q := by
  cases v <;> simp only [Conn.paramProp]
  case none => cases hr : p.ref <;> simp [setProp_ne _ _ h]
  case ref r => cases hr : p.ref <;> simp
  all_goals simp [CVal.isNumeric, setProp_ne _ _ h]

theorem paramProp0_self (c : Conn K R) (p : PName) (v : CVal K R) :
    let b := (c.paramProp0 p v).1.prop p
    b.isSet = (c.prop p).isSet ∧ b.val = (c.prop p).val ∧ b.isVar = (c.prop p).isVar ∧
    b.val0 = Spec.start p (c.prop p).val0 (Spec.keyword p ++ "0", v) := by
  intro b
  cases v <;> simp only [Spec.start, if_true] <;> simp only [b, Conn.paramProp0] <;> simp [CVal.isNumeric]

theorem paramProp0_ne (c : Conn K R) {p q : PName} (v : CVal K R) (h : q ≠ p) :
    (c.paramProp0 p v).1.prop q = c.prop q := by
  cases v <;> simp only [Conn.paramProp0] <;> simp [CVal.isNumeric, setProp_ne _ _ h]

theorem setKey_value (c : Conn K R) (p : PName) (kw : String × CVal K R) :
    let b := (c.setKey kw.1 kw.2).1.prop p
    (b.isSet, b.val) = Spec.value p ((c.prop p).isSet, (c.prop p).val) kw ∧
    b.val0 = Spec.start p (c.prop p).val0 kw := by
  obtain ⟨k, v⟩ := kw
  intro b
  obtain ⟨h1, h2, h3⟩ := setKey_prop c k v
  by_cases hp : ∃ q, CKey.parse k = .prop q
  · obtain ⟨q, hq⟩ := hp
    have hk := parse_prop hq
    have hb : b = (c.paramProp q v).1.prop p := by change (c.setKey k v).1.prop p = _; rw [h1 q hq]
    have hn0 : k ≠ Spec.keyword p ++ "0" := by
      intro e; rw [e, parse_keyword0] at hq; simp at hq
    by_cases hpq : p = q
    · subst hpq
      have := paramProp_self c p v
      rw [hb, hk]
      refine ⟨this.1, ?_⟩
      rw [← hk, Spec.start, if_neg hn0]; exact this.2
    · rw [hb, paramProp_ne c v hpq]
      have hn : k ≠ Spec.keyword p := by rw [hk]; exact fun e => hpq (keyword_inj e).symm
      simp [Spec.value, Spec.start, hn, hn0]
  · by_cases hp0 : ∃ q, CKey.parse k = .prop0 q
    · obtain ⟨q, hq⟩ := hp0
      have hk := parse_prop0 hq
      have hb : b = (c.paramProp0 q v).1.prop p := by change (c.setKey k v).1.prop p = _; rw [h2 q hq]
      have hn : k ≠ Spec.keyword p := by
        intro e; rw [e, parse_keyword] at hq; simp at hq
      by_cases hpq : p = q
      · subst hpq
        have := paramProp0_self c p v
        rw [hb]
        simp only [Spec.value, hn, if_false]
        rw [hk]
        exact ⟨by rw [this.1, this.2.1], this.2.2.2⟩
      · rw [hb, paramProp0_ne c v hpq]
        have hn0 : k ≠ Spec.keyword p ++ "0" := by
          rw [hk]; intro e
          have := parse_keyword0 q
          rw [e, parse_keyword0 p] at this
          injection this with this; exact hpq this
        simp [Spec.value, Spec.start, hn, hn0]
    · have hb : b = c.prop p := by
        change (c.setKey k v).1.prop p = _
        rw [h3 (fun q hq => hp ⟨q, hq⟩) (fun q hq => hp0 ⟨q, hq⟩)]
      have hn : k ≠ Spec.keyword p := fun e => hp ⟨p, by rw [e, parse_keyword]⟩
      have hn0 : k ≠ Spec.keyword p ++ "0" := fun e => hp0 ⟨p, by rw [e, parse_keyword0]⟩
      rw [hb]; simp [Spec.value, Spec.start, hn, hn0]

/-- C27, values: after any sequence of keyword arguments, given in one or many calls, with
or without exceptions, a property is specified with exactly the value the last keywords
naming it say; no other keyword has an influence. -/
theorem C27_value (c : Conn K R) (kws : List (String × CVal K R)) (p : PName) :
    (((c.run kws).prop p).isSet, ((c.run kws).prop p).val) =
      kws.foldl (Spec.value p) ((c.prop p).isSet, (c.prop p).val) := by
  induction kws generalizing c with
  | nil => rfl
  | cons kw kws ih =>
    change ((((c.setKey kw.1 kw.2).1.run kws).prop p).isSet, (((c.setKey kw.1 kw.2).1.run kws).prop p).val) = _
    rw [ih, List.foldl_cons, (setKey_value c p kw).1]

/-- C27, starting values. -/
theorem C27_start (c : Conn K R) (kws : List (String × CVal K R)) (p : PName) :
    ((c.run kws).prop p).val0 = kws.foldl (Spec.start p) (c.prop p).val0 := by
  induction kws generalizing c with
  | nil => rfl
  | cons kw kws ih =>
    change (((c.setKey kw.1 kw.2).1.run kws).prop p).val0 = _
    rw [ih, List.foldl_cons, (setKey_value c p kw).2]

theorem setKey_ref (c : Conn K R) (p : PName) (r : RName) (hr : p.ref = some r) (kw : String × CVal K R)
    (hi : kw.1 ∉ Spec.internalKeys) :
    let b := (c.setKey kw.1 kw.2).1.ref r
    (b.isSet, b.ref) = Spec.reference p ((c.ref r).isSet, (c.ref r).ref) kw := by
  obtain ⟨k, v⟩ := kw
  intro b
  have href : ∀ {q : PName}, q.ref = some r → q = p := by
    intro q hq
    cases p <;> cases q <;> first | rfl | (simp [PName.ref] at hr; done) | (rw [← hr] at hq; simp [PName.ref] at hq; done)
  have hframe : (∀ q, CKey.parse k ≠ .prop q) → b = c.ref r := by
    intro h1
    change (c.setKey k v).1.ref r = _
    unfold Conn.setKey
    cases hk : CKey.parse k with
    | prop p => exact absurd hk (h1 p)
    | prop0 p =>
      dsimp only [Conn.paramProp0]
      cases v <;> first | rfl | (simp [CVal.isNumeric])
    | fluid k' => rw [(fluidSpec_prop c k' v).2]
    | ref r => exact absurd (parse_ref hk) hi
    | ref0 r =>
      dsimp only [Conn.paramRef0]
      cases v <;> first | rfl | (simp [CVal.isNumeric])
    | state =>
      cases v <;> first | rfl | (dsimp only; split <;> rfl)
    | design =>
      cases v <;> first | rfl | (dsimp only; split <;> rfl)
    | offdesign =>
      cases v <;> first | rfl | (dsimp only; split <;> rfl)
    | printout => cases v <;> rfl
    | localDesign => cases v <;> rfl
    | localOffdesign => cases v <;> rfl
    | label => rfl
    | designPath => rfl
    | mixingRule => rfl
    | unknown => rfl
  by_cases hp : ∃ q, CKey.parse k = .prop q
  · obtain ⟨q, hq⟩ := hp
    have hk := parse_prop hq
    have hb : b = (c.paramProp q v).1.ref r := by
      change (c.setKey k v).1.ref r = _; rw [(setKey_prop c k v).1 q hq]
    rw [hb]
    by_cases hpq : q = p
    · subst hpq
      rw [hk]
      cases v <;> simp only [Spec.reference, if_true] <;> simp [Conn.paramProp, hr, CVal.isNumeric]
    · have hn : k ≠ Spec.keyword p := by rw [hk]; exact fun e => hpq (keyword_inj e)
      simp only [Spec.reference, hn, if_false]
      have hne : q.ref ≠ some r := fun e => hpq (href e)
      cases v <;> simp only [Conn.paramProp]
      case none =>
        cases hqr : q.ref with
        | none => simp
        | some r' =>
          have : r ≠ r' := by rintro rfl; exact hne hqr
          simp [setRef_ne _ _ this]
      case ref x =>
        cases hqr : q.ref with
        | none => simp
        | some r' =>
          have : r ≠ r' := by rintro rfl; exact hne hqr
          simp [setRef_ne _ _ this]
      all_goals simp [CVal.isNumeric]
  · have hn : k ≠ Spec.keyword p := fun e => hp ⟨p, by rw [e, parse_keyword]⟩
    rw [hframe (fun q hq => hp ⟨q, hq⟩)]
    simp [Spec.reference, hn]

/-- C27, references: the reference of a property is what the last `Ref` or `None` for it
says, independent of its value specification and of all other keywords of the documented
interface. -/
theorem C27_reference (c : Conn K R) (kws : List (String × CVal K R)) (p : PName) (r : RName) (hr : p.ref = some r)
    (hi : ∀ kw ∈ kws, kw.1 ∉ Spec.internalKeys) :
    (((c.run kws).ref r).isSet, ((c.run kws).ref r).ref) =
      kws.foldl (Spec.reference p) ((c.ref r).isSet, (c.ref r).ref) := by
  induction kws generalizing c with
  | nil => rfl
  | cons kw kws ih =>
    change ((((c.setKey kw.1 kw.2).1.run kws).ref r).isSet, (((c.setKey kw.1 kw.2).1.run kws).ref r).ref) = _
    rw [ih _ (fun kw' h => hi kw' (List.mem_cons_of_mem _ h)), List.foldl_cons,
      setKey_ref c p r hr kw (hi kw List.mem_cons_self)]

/-- C27: mass flow, pressure and enthalpy are a variable of the problem exactly if they are
not specified, after any sequence of calls on a new connection. -/
theorem C27_variable_iff_unset (kws : List (String × CVal K R)) (p : PName) (hp : p.primary = true) :
    (((Conn.new : Conn K R).run kws).prop p).isVar = !(((Conn.new : Conn K R).run kws).prop p).isSet := by
  suffices h : ∀ (kws : List (String × CVal K R)) (c : Conn K R), (c.prop p).isVar = !(c.prop p).isSet →
      ((c.run kws).prop p).isVar = !((c.run kws).prop p).isSet from h kws _ (by simp [Conn.new, hp])
  intro kws
  induction kws with
  | nil => intro c h; exact h
  | cons kw kws ih =>
    intro c h
    refine ih _ ?_
    obtain ⟨k, v⟩ := kw
    obtain ⟨h1, h2, h3⟩ := setKey_prop c k v
    by_cases hq : ∃ q, CKey.parse k = .prop q
    · obtain ⟨q, hq⟩ := hq
      simp only [h1 q hq]
      by_cases hpq : p = q
      · subst hpq
        cases v <;> simp only [Conn.paramProp]
        case none => cases p.ref <;> simp [hp]
        case ref r => cases p.ref <;> simp [h]
        all_goals simp [CVal.isNumeric, hp, h]
      · rw [paramProp_ne c v hpq]; exact h
    · by_cases hq0 : ∃ q, CKey.parse k = .prop0 q
      · obtain ⟨q, hq0⟩ := hq0
        simp only [h2 q hq0]
        by_cases hpq : p = q
        · subst hpq
          have := paramProp0_self c p v
          rw [this.1, this.2.2.1]; exact h
        · rw [paramProp0_ne c v hpq]; exact h
      · simp only [h3 (fun q hh => hq ⟨q, hh⟩) (fun q hh => hq0 ⟨q, hh⟩)]
        exact h

/-! ### fluids -/

/-- A fluid of the connection: specified?, variable?, fraction, back end. -/
structure Spec.FluidSpec (K : Type) where
  isSet : Bool
  isVar : Bool
  fraction : Option (DVal K)
  backEnd : Option (Option String)

/-- An entry of the argument `fluid`: back end, name and fraction. -/
structure Spec.Entry (K : Type) where
  backEnd : Option String
  name : String
  fraction : DVal K

/-- how an entry is written: `"water"` or `"INCOMP::water"` -/
def Spec.Entry.key (e : Spec.Entry K) : String :=
  match e.backEnd with
  | none => e.name
  | some b => b ++ "::" ++ e.name

/-- What one entry of the argument `fluid` does to fluid `f`. -/
def Spec.fluidEntry (f : String) (old : Spec.FluidSpec K) (e : Spec.Entry K) : Spec.FluidSpec K :=
  if e.name = f then
    match e.fraction with
    | .none => ⟨false, true, old.fraction, old.backEnd⟩
    | .num x => ⟨true, false, some (.num x), some e.backEnd⟩
    | .obj n => ⟨true, false, some (.obj n), some e.backEnd⟩
  else old

/-- what the connection stores for a fluid -/
def CFluid.observe (c : CFluid K) (f : String) : Spec.FluidSpec K :=
  ⟨decide (f ∈ c.isSet), decide (f ∈ c.isVar), Dict.get? c.val f, Dict.get? c.backEnd f⟩

theorem entry_observe (c : CFluid K) (b : Option String) (n : String) (x : DVal K) (f : String) :
    (c.entry b n x).observe f = Spec.fluidEntry f (c.observe f) ⟨b, n, x⟩ := by
  unfold CFluid.entry Spec.fluidEntry CFluid.observe
  by_cases h : n = f
  · subst h
    cases x <;> simp [Dict.get?_set]
  · have h' : f ≠ n := fun e => h e.symm
    cases x <;> simp [h, h', Dict.get?_set]

/-- fluid names without back end -/
def Spec.plain (n : String) : Prop := ¬ [':', ':'] <:+: n.toList

theorem splitColons_plain (l : List Char) (h : ¬ [':', ':'] <:+: l) : splitColons l = [l] := by
  fun_induction splitColons l with
  | case1 => rfl
  | case2 r ih => exact absurd ⟨[], r, rfl⟩ h
  | case3 c r hne x xs hx ih =>
    have := ih (fun hh => h (hh.trans (List.suffix_cons c r).isInfix))
    rw [hx] at this
    injection this with h1 h2
    rw [h1, h2]
  | case4 c r hne hx ih =>
    have := ih (fun hh => h (hh.trans (List.suffix_cons c r).isInfix))
    rw [hx] at this
    simp at this

theorem splitName_plain (n : String) (h : Spec.plain n) : splitName n = some (none, n) := by
  unfold splitName
  rw [splitColons_plain _ h]

theorem splitColons_ne_nil (l : List Char) : splitColons l ≠ [] := by
  fun_induction splitColons l <;> simp

theorem splitColons_backEnd (b n : List Char) (hb : ':' ∉ b) (h : ¬ [':', ':'] <:+: n) :
    splitColons (b ++ ':' :: ':' :: n) = [b, n] := by
  induction b with
  | nil => simp only [List.nil_append, splitColons]; rw [splitColons_plain n h]
  | cons c b ih =>
    have hc : c ≠ ':' := fun e => hb (by simp [e])
    have ih' := ih (fun hh => hb (List.mem_cons_of_mem _ hh))
    rw [List.cons_append]
    have : splitColons (c :: (b ++ ':' :: ':' :: n)) =
        match splitColons (b ++ ':' :: ':' :: n) with
        | x :: xs => (c :: x) :: xs
        | [] => [[c]] := by
      exact splitColons.eq_3 _ _ (fun r h1 _ => hc h1)
    rw [this, ih']

theorem splitName_backEnd (b n : String) (hb : ':' ∉ b.toList) (h : Spec.plain n) :
    splitName (b ++ "::" ++ n) = some (some b, n) := by
  unfold splitName
  have : (b ++ "::" ++ n).toList = b.toList ++ ':' :: ':' :: n.toList := by
    rw [String.toList_append, String.toList_append]; simp
  rw [this, splitColons_backEnd _ _ hb h]
  simp

/-- names and back ends which can be told apart: no colon in the back end, no double colon in the
name of the fluid -/
def Spec.Entry.Plain (e : Spec.Entry K) : Prop :=
  Spec.plain e.name ∧ ∀ b, e.backEnd = some b → ':' ∉ b.toList

theorem splitName_key (e : Spec.Entry K) (h : e.Plain) : splitName e.key = some (e.backEnd, e.name) := by
  obtain ⟨b, n, x⟩ := e
  cases b with
  | none => exact splitName_plain n h.1
  | some b => exact splitName_backEnd b n (h.2 b rfl) h.1

theorem entries_observe (es : List (Spec.Entry K)) (h : ∀ e ∈ es, e.Plain) (c : CFluid K) (f : String) :
    (c.entries (es.map (fun e => (e.key, e.fraction)))).2 = none ∧
    (c.entries (es.map (fun e => (e.key, e.fraction)))).1.observe f =
      es.foldl (Spec.fluidEntry f) (c.observe f) := by
  induction es generalizing c with
  | nil => exact ⟨rfl, rfl⟩
  | cons e es ih =>
    rw [List.map_cons]
    unfold CFluid.entries
    rw [splitName_key e (h e List.mem_cons_self)]
    dsimp only
    obtain ⟨h1, h2⟩ := ih (fun e he => h e (List.mem_cons_of_mem _ he)) (c.entry e.backEnd e.name e.fraction)
    refine ⟨h1, ?_⟩
    rw [h2, entry_observe, List.foldl_cons]

/-- C27, fluids: `set_attr(fluid={...})` sets the named fractions and back ends, makes fluids with
fraction `None` variable and leaves all other fluids as they are. -/
theorem C27_fluid (c : Conn K R) (es : List (Spec.Entry K)) (h : ∀ e ∈ es, e.Plain) (f : String) :
    (c.setAttr [("fluid", .dict (es.map (fun e => (e.key, e.fraction))))]).2 = none ∧
    (c.setAttr [("fluid", .dict (es.map (fun e => (e.key, e.fraction))))]).1.fluid.observe f =
      es.foldl (Spec.fluidEntry f) (c.fluid.observe f) := by
  have hp : CKey.parse "fluid" = .fluid "fluid" := by decide +kernel
  obtain ⟨h1, h2⟩ := entries_observe es h c.fluid f
  have hk : c.setKey "fluid" (.dict (es.map (fun e => (e.key, e.fraction)))) =
      ({ c with fluid := (c.fluid.entries (es.map (fun e => (e.key, e.fraction)))).1 }, none) := by
    unfold Conn.setKey; rw [hp]; simp [Conn.fluidSpec, h1]
  simp only [Conn.setAttr, hk]
  exact ⟨trivial, h2⟩

-- non-vacuity: a fluid with back end and one without fraction
example : ∀ e ∈ ([⟨some "INCOMP", "DowQ", .num (some 1)⟩, ⟨none, "water", .none⟩] : List (Spec.Entry ℚ)), e.Plain := by
  intro e he
  simp only [List.mem_cons, List.not_mem_nil, or_false] at he
  rcases he with rfl | rfl
  · refine ⟨by unfold Spec.plain; decide +kernel, fun b hb => ?_⟩
    injection hb with hb; subst hb; decide +kernel
  · exact ⟨by unfold Spec.plain; decide +kernel, fun b hb => by cases hb⟩

theorem dictUpdate_get (d : Dict String (DVal K)) (es : List (String × DVal K)) (f : String) :
    Dict.get? (dictUpdate d es) f = es.foldl (fun old e => if e.1 = f then some e.2 else old) (Dict.get? d f) := by
  induction es generalizing d with
  | nil => rfl
  | cons e es ih =>
    obtain ⟨k, v⟩ := e
    rw [dictUpdate, ih, List.foldl_cons]
    congr 1
    rw [Dict.get?_set]
    by_cases h : k = f
    · simp [h]
    · simp [h, Ne.symm h]

/-- C27: the remaining keywords about fluids: starting values are merged into the present ones,
engines replace the present ones, the fluid balance is switched as demanded; nothing else changes. -/
theorem C27_fluid_keywords (c : Conn K R) (es : List (String × DVal K)) (b : Bool) :
    (∃ v0, c.setAttr [("fluid0", .dict es)] = ({ c with fluid := { c.fluid with val0 := v0 } }, none) ∧
      ∀ f, Dict.get? v0 f = es.foldl (fun old e => if e.1 = f then some e.2 else old) (Dict.get? c.fluid.val0 f)) ∧
    c.setAttr [("fluid_engines", .dict es)] = ({ c with fluid := { c.fluid with engine := es } }, none) ∧
    c.setAttr [("fluid_balance", .bool b)] = ({ c with balance := b }, none) := by
  have h1 : CKey.parse "fluid0" = .fluid "fluid0" := by decide +kernel
  have h2 : CKey.parse "fluid_engines" = .fluid "fluid_engines" := by decide +kernel
  have h3 : CKey.parse "fluid_balance" = .fluid "fluid_balance" := by decide +kernel
  refine ⟨⟨dictUpdate c.fluid.val0 es, ?_, dictUpdate_get _ _⟩, ?_, ?_⟩
  · have : c.setKey "fluid0" (.dict es) =
        ({ c with fluid := { c.fluid with val0 := dictUpdate c.fluid.val0 es } }, none) := by
      unfold Conn.setKey; rw [h1]; rfl
    simp only [Conn.setAttr, this]
  · have : c.setKey "fluid_engines" (.dict es) = ({ c with fluid := { c.fluid with engine := es } }, none) := by
      unfold Conn.setKey; rw [h2]; rfl
    simp only [Conn.setAttr, this]
  · have : c.setKey "fluid_balance" (.bool b) = ({ c with balance := b }, none) := by
      unfold Conn.setKey; rw [h3]; rfl
    simp only [Conn.setAttr, this]

/-- C27: the keywords which are not about values: what is stored, nothing else changes. -/
theorem C27_settings (c : Conn K R) (b : Bool) (v : CVal K R) (l : List String)
    (hl : ∀ k ∈ l, k ∈ propertyData) :
    c.setAttr [("state", .none)] = ({ c with stateSet := false }, none) ∧
    c.setAttr [("state", .str "l")] = ({ c with stateSet := true, stateVal := "l" }, none) ∧
    c.setAttr [("state", .str "g")] = ({ c with stateSet := true, stateVal := "g" }, none) ∧
    c.setAttr [("design", .list l)] = ({ c with design := l }, none) ∧
    c.setAttr [("offdesign", .list l)] = ({ c with offdesign := l }, none) ∧
    c.setAttr [("design_path", v)] = ({ c with designPath := v, newDesign := true }, none) ∧
    c.setAttr [("printout", .bool b)] = ({ c with printout := b }, none) ∧
    c.setAttr [("local_design", .bool b)] = ({ c with localDesign := b }, none) ∧
    c.setAttr [("local_offdesign", .bool b)] = ({ c with localOffdesign := b }, none) ∧
    c.setAttr [("mixing_rule", v)] = ({ c with mixingRule := v }, none) := by
  have h1 : CKey.parse "state" = .state := by decide +kernel
  have h2 : CKey.parse "design" = .design := by decide +kernel
  have h3 : CKey.parse "offdesign" = .offdesign := by decide +kernel
  have h4 : CKey.parse "design_path" = .designPath := by decide +kernel
  have h5 : CKey.parse "printout" = .printout := by decide +kernel
  have h6 : CKey.parse "local_design" = .localDesign := by decide +kernel
  have h7 : CKey.parse "local_offdesign" = .localOffdesign := by decide +kernel
  have h8 : CKey.parse "mixing_rule" = .mixingRule := by decide +kernel
  have hall : l.all (propertyData.contains ·) = true := by
    rw [List.all_eq_true]; intro k hk; rw [List.contains_iff_mem]; exact hl k hk
  refine ⟨?_, ?_, ?_, ?_, ?_, ?_, ?_, ?_, ?_, ?_⟩ <;>
    simp only [Conn.setAttr, Conn.setKey, h1, h2, h3, h4, h5, h6, h7, h8, hall, if_true] <;> rfl

/-- keywords without the word fluid do not change the fluids -/
theorem setKey_fluid (c : Conn K R) (k : String) (v : CVal K R) (h : hasFluid k = false) :
    (c.setKey k v).1.fluid = c.fluid := by
  unfold Conn.setKey
  cases hk : CKey.parse k with
  | prop p =>
    cases v <;> dsimp only [Conn.paramProp]
    case none => cases p.ref <;> rfl
    case ref r => cases p.ref <;> rfl
    all_goals (try rfl)
  | prop0 p =>
    dsimp only [Conn.paramProp0]
    cases v <;> first | rfl | (simp [CVal.isNumeric])
  | fluid k' =>
    exfalso
    have := parse_fluid hk
    subst this
    unfold CKey.parse at hk
    rw [h] at hk
    simp only [Bool.false_eq_true, if_false] at hk
    split at hk
    · simp at hk
    split at hk
    · simp at hk
    split at hk
    · simp at hk
    split at hk
    · simp at hk
    split at hk
    · simp at hk
    repeat' (split at hk; · simp at hk)
    simp at hk
  | ref r =>
    dsimp only [Conn.paramRef]
    cases v <;> first | rfl | (simp [CVal.isNumeric])
  | ref0 r =>
    dsimp only [Conn.paramRef0]
    cases v <;> first | rfl | (simp [CVal.isNumeric])
  | state =>
    cases v <;> first | rfl | (dsimp only; split <;> rfl)
  | design =>
    cases v <;> first | rfl | (dsimp only; split <;> rfl)
  | offdesign =>
    cases v <;> first | rfl | (dsimp only; split <;> rfl)
  | printout => cases v <;> rfl
  | localDesign => cases v <;> rfl
  | localOffdesign => cases v <;> rfl
  | label => rfl
  | designPath => rfl
  | mixingRule => rfl
  | unknown => rfl

theorem entries_disjoint (es : List (String × DVal K)) (c : CFluid K) (h : Disjoint c.isSet c.isVar) :
    Disjoint (c.entries es).1.isSet (c.entries es).1.isVar := by
  induction es generalizing c with
  | nil => exact h
  | cons e es ih =>
    obtain ⟨n, x⟩ := e
    unfold CFluid.entries
    cases splitName n with
    | none => exact h
    | some bn =>
      refine ih _ ?_
      rw [Finset.disjoint_left] at h ⊢
      unfold CFluid.entry
      intro a
      cases x <;> simp only [if_true, if_false, Bool.false_eq_true]
      · simp only [Finset.mem_erase, Finset.mem_insert, not_or]
        rintro ⟨h1, h2⟩; exact ⟨h1, h h2⟩
      all_goals
        simp only [Finset.mem_erase, Finset.mem_insert, not_and]
        rintro (rfl | h2)
        · intro h3; exact absurd rfl h3
        · intro _; exact h h2

/-- C27: no fluid is specified and variable at the same time, after any sequence of
keywords (documented or not, with or without exceptions). -/
theorem C27_fluid_consistent (kws : List (String × CVal K R)) :
    Disjoint ((Conn.new : Conn K R).run kws).fluid.isSet ((Conn.new : Conn K R).run kws).fluid.isVar := by
  suffices h : ∀ (kws : List (String × CVal K R)) (c : Conn K R), Disjoint c.fluid.isSet c.fluid.isVar →
      Disjoint (c.run kws).fluid.isSet (c.run kws).fluid.isVar from h kws _ (by simp [Conn.new])
  intro kws
  induction kws with
  | nil => intro c h; exact h
  | cons kw kws ih =>
    intro c h
    refine ih _ ?_
    obtain ⟨k, v⟩ := kw
    by_cases hf : hasFluid k = false
    · simp only [setKey_fluid c k v hf]; exact h
    · by_cases hl : k = "label"
      · subst hl; exact h
      · have hk : CKey.parse k = .fluid k := by
          unfold CKey.parse; rw [if_neg hl, if_pos (by simpa using hf)]
        dsimp only
        unfold Conn.setKey
        rw [hk]
        dsimp only [Conn.fluidSpec]
        split
        · cases v <;> exact h
        · cases v <;> try exact h
          dsimp only
          split
          · exact entries_disjoint _ _ h
          · split
            · exact h
            · split <;> exact h

/-! ### what fails -/

/-- C27: an exception leaves the connection unchanged, except for the internal keywords and
the argument `fluid`. -/
theorem C27_error_unchanged (c : Conn K R) (k : String) (v : CVal K R) (e : PyErr)
    (hi : k ∉ Spec.internalKeys) (hf : k ≠ "fluid") (h : (c.setKey k v).2 = some e) : (c.setKey k v).1 = c := by
  revert h
  unfold Conn.setKey
  cases hk : CKey.parse k with
  | prop p =>
    cases v <;> dsimp only [Conn.paramProp]
    case none => cases p.ref <;> simp
    case ref r => cases p.ref <;> simp
    all_goals simp [CVal.isNumeric]
  | prop0 p =>
    dsimp only [Conn.paramProp0]
    cases v <;> simp [CVal.isNumeric]
  | fluid k' =>
    have := parse_fluid hk
    subst this
    dsimp only [Conn.fluidSpec]
    split
    · cases v <;> simp
    · cases v <;> simp only [hf, if_false] <;> try (intro; trivial)
      split
      · simp
      · split
        · simp
        · simp
  | ref r => exact absurd (parse_ref hk) hi
  | ref0 r =>
    dsimp only [Conn.paramRef0]
    cases v <;> simp [CVal.isNumeric]
  | state => cases v <;> first | (simp; done) | (dsimp only; split <;> simp)
  | design => cases v <;> first | (simp; done) | (dsimp only; split <;> simp)
  | offdesign => cases v <;> first | (simp; done) | (dsimp only; split <;> simp)
  | printout => cases v <;> simp
  | localDesign => cases v <;> simp
  | localOffdesign => cases v <;> simp
  | label => simp
  | designPath => simp
  | mixingRule => simp
  | unknown => simp

/-- C27, refuted part: nan is a number for `set_attr`, it specifies the property instead of
removing the specification. -/
theorem C27_nan_specifies (c : Conn K R) (p : PName) :
    (c.setAttr [(Spec.keyword p, .num none)]).2 = none ∧
    ((c.setAttr [(Spec.keyword p, .num none)]).1.prop p).isSet = true ∧
    ((c.setAttr [(Spec.keyword p, .num none)]).1.prop p).val = .num none := by
  have : c.setKey (Spec.keyword p) (.num none) = c.paramProp p (.num none) := by
    unfold Conn.setKey; rw [parse_keyword]
  simp only [Conn.setAttr, this]
  simp [Conn.paramProp, CVal.isNumeric]

/-- C27, refuted part: a number for an internal keyword raises an exception, but the
reference is active afterwards without a reference object. -/
theorem C27_internal_keyword :
    ((Conn.new : Conn ℚ ℕ).setAttr [("m_ref", .num (some 5))]).2 = some .keyError ∧
    (((Conn.new : Conn ℚ ℕ).setAttr [("m_ref", .num (some 5))]).1.ref .m).isSet = true ∧
    (((Conn.new : Conn ℚ ℕ).setAttr [("m_ref", .num (some 5))]).1.ref .m).ref = none := by
  decide +kernel

/-- C27, refuted part: a call which raises an exception has executed the keywords before the
failing one. -/
theorem C27_not_atomic :
    ((Conn.new : Conn ℚ ℕ).setAttr [("m", .num (some 5)), ("q", .num (some 1))]).2 = some .keyError ∧
    (((Conn.new : Conn ℚ ℕ).setAttr [("m", .num (some 5)), ("q", .num (some 1))]).1.prop .m).isSet = true := by
  decide +kernel

-- non-vacuity
example : (let c := ((Conn.new : Conn ℚ ℕ).run [("m", .num (some 5)), ("p", .num (some 1)), ("m", .ref 7),
    ("p", .none), ("T0", .num (some 3))]);
    ((c.prop .m).isSet, (c.ref .m).ref, (c.prop .p).isSet, (c.prop .T).val0)) =
    (true, some 7, false, .num (some 3)) := by decide +kernel
example : ∀ e ∈ ([("O2", .num (some 1)), ("N2", .none)] : List (String × DVal ℚ)), Spec.plain e.1 := by
  simp only [Spec.plain]; decide +kernel

end Tespy
