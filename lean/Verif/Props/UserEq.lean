import Verif.Model.UserEq
import Verif.Lemmas.DictLemmas
import Mathlib.Tactic.SplitIfs
/-!
C82: user defined equations.
-/
namespace Tespy

namespace Spec

/-- The equation object `o` is registered under the label `l`. -/
def Registered (w : UdeWorld) (l : String) (o : ℕ) : Prop := Dict.get? w.reg l = some o

/-- Every label is registered once, for an equation with this label, and every equation has a list of
connections and a dictionary of parameters. -/
structure UdeOk (w : UdeWorld) : Prop where
  labels : (Dict.keys w.reg).Nodup
  objects : ∀ l o, Registered w l o → ∃ u, w.objs[o]? = some u ∧ u.label = l
  conns : ∀ u ∈ w.objs, u.conns < w.lists.length
  params : ∀ u ∈ w.objs, u.params < w.dicts.length
  default : 0 < w.dicts.length

end Spec

open Spec

theorem addUde_spec (args : List (Option ℕ)) (w : UdeWorld) (hw : UdeOk w) :
    UdeOk (addUde w args).1 ∧ (addUde w args).1.objs = w.objs ∧ (addUde w args).1.lists = w.lists
      ∧ (addUde w args).1.dicts = w.dicts := by
  induction args generalizing w with
  | nil => exact ⟨hw, rfl, rfl, rfl⟩
  | cons a args ih =>
    cases a with
    | none => exact ⟨hw, rfl, rfl, rfl⟩
    | some o =>
      simp only [addUde]
      cases ho : w.objs[o]? with
      | none => exact ⟨hw, rfl, rfl, rfl⟩
      | some u =>
        simp only []
        split_ifs with h
        · exact ⟨hw, rfl, rfl, rfl⟩
        · refine ih _ ⟨Dict.nodup_keys_set _ _ hw.labels, ?_, hw.conns, hw.params, hw.default⟩
          intro l o' hl
          simp only [Registered, Dict.get?_set] at hl
          split_ifs at hl with hll
          · injection hl with hl
            subst hl
            exact ⟨u, ho, hll.symm⟩
          · exact hw.objects l o' hl

theorem delUde_spec (args : List ℕ) (w : UdeWorld) (hw : UdeOk w) :
    UdeOk (delUde w args).1 ∧ (delUde w args).1.objs = w.objs ∧ (delUde w args).1.lists = w.lists
      ∧ (delUde w args).1.dicts = w.dicts := by
  induction args generalizing w with
  | nil => exact ⟨hw, rfl, rfl, rfl⟩
  | cons o args ih =>
    simp only [delUde]
    cases ho : w.objs[o]? with
    | none => exact ⟨hw, rfl, rfl, rfl⟩
    | some u =>
      simp only []
      split_ifs with h
      · refine ih _ ⟨Dict.nodup_keys_erase _ hw.labels, ?_, hw.conns, hw.params, hw.default⟩
        intro l o' hl
        simp only [Registered, Dict.get?_erase hw.labels] at hl
        split_ifs at hl with hll
        exact hw.objects l o' hl
      · exact ⟨hw, rfl, rfl, rfl⟩

/-- one step of the preparation keeps the state consistent -/
theorem remap_step_ok (w : UdeWorld) (hw : UdeOk w) (o : ℕ) (u : UdeObj) (ho : w.objs[o]? = some u)
    (r : List UConn) :
    UdeOk { w with objs := w.objs.set o { u with conns := w.lists.length }, lists := w.lists ++ [r] } := by
  refine ⟨hw.labels, ?_, ?_, ?_, hw.default⟩
  · intro l o' hl
    obtain ⟨u', hu', hl'⟩ := hw.objects l o' hl
    by_cases h : o = o'
    · subst h
      rw [ho] at hu'
      injection hu' with hu'
      subst hu'
      exact ⟨{ u with conns := w.lists.length },
        List.getElem?_set_self (List.getElem?_eq_some_iff.mp ho).1, hl'⟩
    · exact ⟨u', by simp [List.getElem?_set, h, hu'], hl'⟩
  · intro u' hu'
    simp only [List.length_append, List.length_cons, List.length_nil]
    rcases List.mem_or_eq_of_mem_set hu' with h | h
    · have := hw.conns u' h; omega
    · subst h
      show w.lists.length < w.lists.length + 1
      omega
  · intro u' hu'
    rcases List.mem_or_eq_of_mem_set hu' with h | h
    · exact hw.params u' h
    · subst h
      exact hw.params u (List.mem_of_getElem? ho)

theorem remapAll_ok (net : Dict String ℕ) (os : List ℕ) (w : UdeWorld) (hw : UdeOk w) :
    UdeOk (remapAll net w os).1 := by
  induction os generalizing w with
  | nil => exact hw
  | cons o os ih =>
    simp only [remapAll]
    cases ho : w.objs[o]? with
    | none => exact hw
    | some u =>
      simp only []
      cases hr : remapConns net ((w.lists[u.conns]?).getD []) with
      | error e => exact hw
      | ok r => exact ih _ (remap_step_ok w hw o u ho r)

/-- C82 (registry): after every sequence of calls, failing ones included, the labels of the
registered equations are unique and each label belongs to its equation. -/
theorem C82_registry (ops : List UdeOp) : UdeOk (udeRun ops) := by
  have hinit : UdeOk UdeWorld.init :=
    ⟨by simp [UdeWorld.init, Dict.keys], by simp [UdeWorld.init, Registered],
      by simp [UdeWorld.init], by simp [UdeWorld.init], by simp [UdeWorld.init]⟩
  suffices h : ∀ w, UdeOk w → UdeOk (ops.foldl udeStep w) from h _ hinit
  induction ops with
  | nil => exact fun w hw => hw
  | cons op ops ih =>
    intro w hw
    refine ih _ ?_
    cases op with
    | list l =>
      refine ⟨hw.labels, hw.objects, ?_, hw.params, hw.default⟩
      intro u hu
      have := hw.conns u hu
      simp only [udeStep, List.length_append, List.length_cons, List.length_nil]
      omega
    | dict d =>
      refine ⟨hw.labels, hw.objects, hw.conns, ?_, ?_⟩
      · intro u hu
        have := hw.params u hu
        simp only [udeStep, List.length_append, List.length_cons, List.length_nil]
        omega
      · simp only [udeStep, List.length_append, List.length_cons, List.length_nil]
        omega
    | create l c p x =>
      simp only [udeStep]
      split_ifs with h
      · unfold newUde
        cases l with
        | none => exact hw
        | some l =>
          cases c with
          | none => exact hw
          | some c =>
            simp only []
            cases hp : p.object with
            | none => exact hw
            | some n =>
              simp only []
              split_ifs with hx
              · simp only [Bool.and_eq_true, decide_eq_true_eq] at h
                refine ⟨hw.labels, ?_, ?_, ?_, hw.default⟩
                · intro l' o ho
                  obtain ⟨u, hu, hl⟩ := hw.objects l' o ho
                  refine ⟨u, ?_, hl⟩
                  rw [List.getElem?_append_left (List.getElem?_eq_some_iff.mp hu).1]
                  exact hu
                · intro u hu
                  rcases List.mem_append.mp hu with hu | hu
                  · exact hw.conns u hu
                  · rw [List.mem_singleton] at hu
                    subst hu
                    exact h.1
                · intro u hu
                  rcases List.mem_append.mp hu with hu | hu
                  · exact hw.params u hu
                  · rw [List.mem_singleton] at hu
                    subst hu
                    cases p with
                    | absent =>
                      simp only [ParamsArg.object, Option.some.injEq] at hp
                      subst hp
                      exact hw.default
                    | dict m =>
                      simp only [ParamsArg.object, Option.some.injEq] at hp
                      subst hp
                      simpa using h.2
                    | other => simp [ParamsArg.object] at hp
              · exact hw
      · exact hw
    | setParam o k v =>
      simp only [udeStep, setUdeParam]
      cases ho : w.objs[o]? with
      | none => exact hw
      | some u =>
        refine ⟨hw.labels, hw.objects, hw.conns, ?_, ?_⟩
        · simpa using hw.params
        · simpa using hw.default
    | add args => exact (addUde_spec args w hw).1
    | del args => exact (delUde_spec args w hw).1
    | solve net => exact remapAll_ok net _ w hw

/-- C82 (adding): a successful `add_ude` registers exactly the given equations, after those registered
before, and these had labels which were neither registered nor given twice. -/
theorem C82_add (args : List (Option ℕ)) (w : UdeWorld) (h : (addUde w args).2 = none) :
    ∃ us : List (ℕ × UdeObj), args = us.map (fun e => some e.1)
      ∧ (∀ e ∈ us, w.objs[e.1]? = some e.2)
      ∧ (addUde w args).1.reg = w.reg ++ us.map (fun e => (e.2.label, e.1))
      ∧ (us.map (fun e => e.2.label)).Nodup ∧ ∀ e ∈ us, e.2.label ∉ Dict.keys w.reg := by
  induction args generalizing w with
  | nil => exact ⟨[], rfl, by simp, by simp [addUde], by simp, by simp⟩
  | cons a args ih =>
    cases a with
    | none => simp [addUde] at h
    | some o =>
      simp only [addUde] at h ⊢
      cases ho : w.objs[o]? with
      | none => rw [ho] at h; simp at h
      | some u =>
        rw [ho] at h
        simp only [] at h ⊢
        split_ifs at h ⊢ with hl
        obtain ⟨us, h1, h2, h3, h4, h5⟩ := ih _ h
        simp only [Dict.set_of_not_mem _ hl] at h2 h3 h5
        refine ⟨(o, u) :: us, by simp [h1], ?_, ?_, ?_, ?_⟩
        · intro e he
          rcases List.mem_cons.mp he with rfl | he
          · exact ho
          · exact h2 e he
        · rw [Dict.set_of_not_mem _ hl, h3]
          simp
        · simp only [List.map_cons, List.nodup_cons]
          refine ⟨?_, h4⟩
          intro hm
          obtain ⟨e, he, hel⟩ := List.mem_map.mp hm
          refine h5 e he ?_
          simp [Dict.keys, hel]
        · intro e he
          rcases List.mem_cons.mp he with rfl | he
          · exact hl
          · intro hk
            refine h5 e he ?_
            simp only [Dict.keys, List.map_append, List.mem_append] at hk ⊢
            exact .inl hk

/-- C82 (error of adding): `add_ude` raises `ValueError` when it meets an equation whose label is taken and
registers neither it nor the following ones. -/
theorem C82_add_taken (w : UdeWorld) (o : ℕ) (u : UdeObj) (ho : w.objs[o]? = some u)
    (rest : List (Option ℕ)) (h : u.label ∈ Dict.keys w.reg) :
    addUde w (some o :: rest) = (w, some .valueError) := by
  simp [addUde, ho, h]

/-- C82 is false for failing calls: equations given before the one with the taken label stay registered. -/
theorem C82_add_not_atomic_false :
    ∃ w args, UdeOk w ∧ (addUde w args).2 = some .valueError ∧ (addUde w args).1.reg ≠ w.reg := by
  refine ⟨udeRun [.list [], .create (some "a") (some 0) .absent true,
    .create (some "b") (some 0) .absent true, .add [some 0]], [some 1, some 0], C82_registry _, ?_, ?_⟩
    <;> decide +kernel

/-- C82 (deleting): a successful `del_ude` of one equation removes what is registered under its label and
nothing else; with an unknown label it raises `KeyError` and changes nothing. -/
theorem C82_del (w : UdeWorld) (hw : UdeOk w) (o : ℕ) (u : UdeObj) (ho : w.objs[o]? = some u) :
    ((delUde w [o]).2 = none ↔ ∃ o', Registered w u.label o')
    ∧ ((delUde w [o]).2 = none → ∀ l o', Registered (delUde w [o]).1 l o' ↔
        (Registered w l o' ∧ l ≠ u.label))
    ∧ ((delUde w [o]).2 ≠ none → delUde w [o] = (w, some .keyError)) := by
  have hiff : u.label ∈ Dict.keys w.reg ↔ ∃ o', Registered w u.label o' := by
    rw [← Dict.get?_isSome_iff, Option.isSome_iff_exists]
    rfl
  by_cases h : u.label ∈ Dict.keys w.reg
  · have hd : delUde w [o] = ({ w with reg := Dict.erase w.reg u.label }, none) := by
      simp [delUde, ho, h]
    rw [hd]
    refine ⟨by simp [← hiff, h], fun _ l o' => ?_, by simp⟩
    simp only [Registered, Dict.get?_erase hw.labels]
    by_cases hl : l = u.label <;> simp [hl]
  · have hd : delUde w [o] = (w, some .keyError) := by simp [delUde, ho, h]
    rw [hd]
    exact ⟨by simp [← hiff, h], by simp, fun _ => rfl⟩

/-- C82 is false for equations which were never added: deleting one of them removes another
equation with the same label. -/
theorem C82_del_other_false :
    ∃ w o o', UdeOk w ∧ o ≠ o' ∧ Registered w "a" o ∧ (delUde w [o']).2 = none
      ∧ ∀ l, ¬ Registered (delUde w [o']).1 l o := by
  refine ⟨udeRun [.list [], .create (some "a") (some 0) .absent true,
    .create (some "a") (some 0) .absent true, .add [some 0]], 0, 1, C82_registry _, by decide,
    by unfold Registered; decide +kernel, by decide +kernel, ?_⟩
  intro l
  have : (delUde (udeRun [.list [], .create (some "a") (some 0) .absent true,
    .create (some "a") (some 0) .absent true, .add [some 0]]) [1]).1.reg = [] := by decide +kernel
  simp [Registered, this]

/-! ### Preparation of a calculation -/

theorem remapConns_ok (net : Dict String ℕ) (cs r : List UConn) :
    remapConns net cs = .ok r ↔
      r.map (fun c => c.label) = cs.map (fun c => c.label)
      ∧ ∀ c ∈ r, Dict.get? net c.label = some c.ident := by
  induction cs generalizing r with
  | nil =>
    simp only [remapConns, List.map_nil, List.map_eq_nil_iff]
    constructor
    · intro h; injection h with h; subst h; simp
    · rintro ⟨rfl, -⟩; rfl
  | cons c cs ih =>
    simp only [remapConns]
    cases hg : Dict.get? net c.label with
    | none =>
      simp only [reduceCtorEq, false_iff, not_and]
      intro hr
      cases r with
      | nil => simp at hr
      | cons d r =>
        simp only [List.map_cons, List.cons.injEq] at hr
        intro hall
        have := hall d (by simp)
        rw [hr.1, hg] at this
        cases this
    | some i =>
      simp only []
      constructor
      · intro h
        cases hr : remapConns net cs with
        | error e => rw [hr] at h; cases h
        | ok r' =>
          rw [hr] at h
          simp only [Except.ok.injEq] at h
          subst h
          obtain ⟨h1, h2⟩ := (ih r').mp hr
          refine ⟨by simp [h1], ?_⟩
          intro d hd
          rcases List.mem_cons.mp hd with rfl | hd
          · exact hg
          · exact h2 d hd
      · rintro ⟨h1, h2⟩
        cases r with
        | nil => simp at h1
        | cons d r =>
          simp only [List.map_cons, List.cons.injEq] at h1
          have hr := (ih r).mpr ⟨h1.2, fun c hc => h2 c (List.mem_cons_of_mem _ hc)⟩
          rw [hr]
          have hd := h2 d (by simp)
          rw [h1.1, hg] at hd
          injection hd with hd
          obtain ⟨dl, di⟩ := d
          simp only at h1 hd
          rw [h1.1, hd]

theorem remapConns_error (net : Dict String ℕ) (cs : List UConn) (e : PyErr)
    (h : remapConns net cs = .error e) :
    e = .keyError ∧ ∃ c ∈ cs, c.label ∉ Dict.keys net := by
  induction cs with
  | nil => cases h
  | cons c cs ih =>
    simp only [remapConns] at h
    cases hg : Dict.get? net c.label with
    | none =>
      rw [hg] at h
      simp only [Except.error.injEq] at h
      exact ⟨h.symm, c, by simp, (Dict.get?_eq_none_iff _ _).mp hg⟩
    | some i =>
      rw [hg] at h
      simp only [] at h
      cases hr : remapConns net cs with
      | ok r => rw [hr] at h; cases h
      | error e' =>
        rw [hr] at h
        simp only [Except.error.injEq] at h
        subst h
        obtain ⟨h1, c', hc', h2⟩ := ih hr
        exact ⟨h1, c', by simp [hc'], h2⟩

theorem remapConns_known (net : Dict String ℕ) (cs : List UConn)
    (h : ∀ c ∈ cs, c.label ∈ Dict.keys net) : ∃ r, remapConns net cs = .ok r := by
  cases hr : remapConns net cs with
  | ok r => exact ⟨r, rfl⟩
  | error e =>
    obtain ⟨-, c, hc, hn⟩ := remapConns_error net cs e hr
    exact absurd (h c hc) hn

/-- a step of the preparation -/
def remapStep (w : UdeWorld) (o : ℕ) (u : UdeObj) (r : List UConn) : UdeWorld :=
  { w with objs := w.objs.set o { u with conns := w.lists.length }, lists := w.lists ++ [r] }

theorem connsOf_step_other (w : UdeWorld) (hw : UdeOk w) (o o' : ℕ) (u : UdeObj) (r : List UConn)
    (h : o ≠ o') : (remapStep w o u r).connsOf o' = w.connsOf o' := by
  simp only [UdeWorld.connsOf, remapStep, List.getElem?_set_ne h]
  cases ho : w.objs[o']? with
  | none => rfl
  | some u' =>
    simp only []
    rw [List.getElem?_append_left (hw.conns u' (List.mem_of_getElem? ho))]

theorem connsOf_step_self (w : UdeWorld) (o : ℕ) (u : UdeObj) (ho : w.objs[o]? = some u)
    (r : List UConn) : (remapStep w o u r).connsOf o = some r := by
  have hl := (List.getElem?_eq_some_iff.mp ho).1
  simp [UdeWorld.connsOf, remapStep, hl]

theorem remapAll_cons (net : Dict String ℕ) (w : UdeWorld) (hw : UdeOk w) (o : ℕ) (os : List ℕ)
    (u : UdeObj) (ho : w.objs[o]? = some u) :
    ∃ cs, w.connsOf o = some cs ∧ remapAll net w (o :: os)
      = match remapConns net cs with
        | .error e => (w, some e)
        | .ok r => remapAll net (remapStep w o u r) os := by
  have hlt := hw.conns u (List.mem_of_getElem? ho)
  refine ⟨w.lists[u.conns], by simp [UdeWorld.connsOf, ho, hlt], ?_⟩
  simp only [remapAll, ho]
  rw [List.getElem?_eq_getElem hlt, Option.getD_some]
  rfl

theorem remapAll_other (net : Dict String ℕ) (os : List ℕ) (w : UdeWorld) (hw : UdeOk w) (o : ℕ)
    (h : o ∉ os) : (remapAll net w os).1.connsOf o = w.connsOf o := by
  induction os generalizing w with
  | nil => rfl
  | cons o' os ih =>
    simp only [List.mem_cons, not_or] at h
    cases ho : w.objs[o']? with
    | none => simp [remapAll, ho]
    | some u =>
      obtain ⟨cs, -, he⟩ := remapAll_cons net w hw o' os u ho
      rw [he]
      cases hr : remapConns net cs with
      | error e => rfl
      | ok r =>
        simp only []
        rw [ih (remapStep w o' u r) (remap_step_ok w hw o' u ho r) h.2]
        exact connsOf_step_other w hw o' o u r (Ne.symm h.1)

theorem remapAll_spec (net : Dict String ℕ) (os : List ℕ) (hn : os.Nodup) (w : UdeWorld) (hw : UdeOk w)
    (hex : ∀ o ∈ os, ∃ u, w.objs[o]? = some u) :
    ((remapAll net w os).2 = none → ∀ o ∈ os, ∃ cs r, w.connsOf o = some cs
        ∧ (remapAll net w os).1.connsOf o = some r ∧ remapConns net cs = .ok r)
    ∧ (∀ e, (remapAll net w os).2 = some e → e = .keyError
        ∧ ∃ o ∈ os, ∃ cs, w.connsOf o = some cs ∧ ∃ c ∈ cs, c.label ∉ Dict.keys net) := by
  induction os generalizing w with
  | nil => simp [remapAll]
  | cons o os ih =>
    obtain ⟨u, ho⟩ := hex o (by simp)
    obtain ⟨hno, hn'⟩ := List.nodup_cons.mp hn
    obtain ⟨cs, hcs, he⟩ := remapAll_cons net w hw o os u ho
    rw [he]
    cases hr : remapConns net cs with
    | error e =>
      obtain ⟨h1, h2⟩ := remapConns_error net cs e hr
      refine ⟨by simp, ?_⟩
      intro e' he'
      simp only [Option.some.injEq] at he'
      subst he'
      exact ⟨h1, o, by simp, cs, hcs, h2⟩
    | ok r =>
      simp only []
      have hok : UdeOk (remapStep w o u r) := remap_step_ok w hw o u ho r
      have hother : ∀ o' ∈ os, o ≠ o' := fun o' h' => fun h => hno (h ▸ h')
      have hex' : ∀ o' ∈ os, ∃ u', (remapStep w o u r).objs[o']? = some u' := by
        intro o' ho'
        obtain ⟨u', hu'⟩ := hex o' (List.mem_cons_of_mem _ ho')
        exact ⟨u', by simp [remapStep, List.getElem?_set_ne (hother o' ho'), hu']⟩
      obtain ⟨ih1, ih2⟩ := ih hn' (remapStep w o u r) hok hex'
      constructor
      · intro hnone o' ho'
        rcases List.mem_cons.mp ho' with rfl | ho'
        · refine ⟨cs, r, hcs, ?_, hr⟩
          rw [remapAll_other net os _ hok _ hno]
          exact connsOf_step_self w _ u ho r
        · obtain ⟨cs', r', h1, h2, h3⟩ := ih1 hnone o' ho'
          rw [connsOf_step_other w hw o o' u r (hother o' ho')] at h1
          exact ⟨cs', r', h1, h2, h3⟩
      · intro e hee
        obtain ⟨h1, o', ho', cs', h2, h3⟩ := ih2 e hee
        rw [connsOf_step_other w hw o o' u r (hother o' ho')] at h2
        exact ⟨h1, o', List.mem_cons_of_mem _ ho', cs', h2, h3⟩

/-- registered equations are different objects -/
theorem registered_nodup (w : UdeWorld) (hw : UdeOk w) : (w.reg.map Prod.snd).Nodup := by
  have hobj := hw.objects
  have hl := hw.labels
  have hmem : ∀ e ∈ w.reg, ∃ u, w.objs[e.2]? = some u ∧ u.label = e.1 := fun e he =>
    hobj e.1 e.2 (Dict.get?_of_mem hl he)
  clear hobj
  generalize w.reg = d at hl hmem
  induction d with
  | nil => simp
  | cons e d ih =>
    simp only [Dict.keys, List.map_cons, List.nodup_cons] at hl ⊢
    refine ⟨?_, ih hl.2 (fun e' he' => hmem e' (List.mem_cons_of_mem _ he'))⟩
    intro hm
    obtain ⟨e', he', hee⟩ := List.mem_map.mp hm
    obtain ⟨u, hu, hul⟩ := hmem e (by simp)
    obtain ⟨u', hu', hul'⟩ := hmem e' (List.mem_cons_of_mem _ he')
    rw [hee, hu] at hu'
    injection hu' with hu'
    subst hu'
    exact hl.1 (List.mem_map.mpr ⟨e', he', by rw [← hul', hul]⟩)

/-- C82 (connections): after the preparation of a calculation without error every registered equation refers
to the connections of the network which have the labels of the connections given by the user, in
the same order. -/
theorem C82_connections (net : Dict String ℕ) (w : UdeWorld) (hw : UdeOk w)
    (h : (prepareUdes net w).2 = none) (l : String) (o : ℕ) (ho : Registered w l o) :
    ∃ cs r, w.connsOf o = some cs ∧ (prepareUdes net w).1.connsOf o = some r
      ∧ r.map (fun c => c.label) = cs.map (fun c => c.label)
      ∧ ∀ c ∈ r, Dict.get? net c.label = some c.ident := by
  have hmem : o ∈ w.reg.map Prod.snd := List.mem_map.mpr ⟨(l, o), Dict.mem_of_get? ho, rfl⟩
  have hex : ∀ o ∈ w.reg.map Prod.snd, ∃ u, w.objs[o]? = some u := by
    intro o ho
    obtain ⟨e, he, rfl⟩ := List.mem_map.mp ho
    obtain ⟨u, hu, -⟩ := hw.objects e.1 e.2 (Dict.get?_of_mem hw.labels he)
    exact ⟨u, hu⟩
  obtain ⟨cs, r, h1, h2, h3⟩ := (remapAll_spec net _ (registered_nodup w hw) w hw hex).1 h o hmem
  exact ⟨cs, r, h1, h2, (remapConns_ok net cs r).mp h3⟩

/-- C82 (same connections): if the connections given by the user belong to the network, the equation refers to
exactly them. -/
theorem C82_connections_kept (net : Dict String ℕ) (w : UdeWorld) (hw : UdeOk w)
    (h : (prepareUdes net w).2 = none) (l : String) (o : ℕ) (ho : Registered w l o) (cs : List UConn)
    (hcs : w.connsOf o = some cs) (hin : ∀ c ∈ cs, Dict.get? net c.label = some c.ident) :
    (prepareUdes net w).1.connsOf o = some cs := by
  obtain ⟨cs', r, h1, h2, h3, h4⟩ := C82_connections net w hw h l o ho
  rw [hcs] at h1
  injection h1 with h1
  subst h1
  have hr := (remapConns_ok net cs r).mpr ⟨h3, h4⟩
  have hc := (remapConns_ok net cs cs).mpr ⟨rfl, hin⟩
  rw [hr] at hc
  injection hc with hc
  rw [h2, hc]

/-- C82 (error of the preparation): the preparation fails exactly if a registered equation uses a connection whose
label is not in the network; the error is `KeyError`. -/
theorem C82_connections_missing (net : Dict String ℕ) (w : UdeWorld) (hw : UdeOk w) :
    ((prepareUdes net w).2 ≠ none ↔ ∃ l o cs, Registered w l o ∧ w.connsOf o = some cs
        ∧ ∃ c ∈ cs, c.label ∉ Dict.keys net)
    ∧ ((prepareUdes net w).2 ≠ none → (prepareUdes net w).2 = some .keyError) := by
  have hex : ∀ o ∈ w.reg.map Prod.snd, ∃ u, w.objs[o]? = some u := by
    intro o ho
    obtain ⟨e, he, rfl⟩ := List.mem_map.mp ho
    obtain ⟨u, hu, -⟩ := hw.objects e.1 e.2 (Dict.get?_of_mem hw.labels he)
    exact ⟨u, hu⟩
  have hs := remapAll_spec net _ (registered_nodup w hw) w hw hex
  constructor
  · constructor
    · intro h
      obtain ⟨e, he⟩ := Option.ne_none_iff_exists'.mp h
      obtain ⟨-, o, ho, cs, h1, h2⟩ := hs.2 e he
      obtain ⟨x, hx, rfl⟩ := List.mem_map.mp ho
      exact ⟨x.1, x.2, cs, Dict.get?_of_mem hw.labels hx, h1, h2⟩
    · rintro ⟨l, o, cs, ho, hcs, c, hc, hn⟩ hnone
      obtain ⟨cs', r, h1, h2, h3, h4⟩ := C82_connections net w hw hnone l o ho
      rw [hcs] at h1
      injection h1 with h1
      subst h1
      have : c.label ∈ r.map (fun c => c.label) := by rw [h3]; exact List.mem_map.mpr ⟨c, hc, rfl⟩
      obtain ⟨c', hc', hl⟩ := List.mem_map.mp this
      have h5 := h4 c' hc'
      rw [hl] at h5
      rw [(Dict.get?_eq_none_iff _ _).mpr hn] at h5
      cases h5
  · intro h
    obtain ⟨e, he⟩ := Option.ne_none_iff_exists'.mp h
    rw [show (prepareUdes net w).2 = some e from he, (hs.2 e he).1]

/-- C82 is false for a connection which was removed from the network and replaced by another one with the
same label: the equation silently refers to the new connection. -/
theorem C82_connections_replaced_false :
    ∃ w net, UdeOk w ∧ Registered w "e" 0 ∧ w.connsOf 0 = some [⟨"c", 1⟩]
      ∧ (prepareUdes net w).2 = none ∧ (prepareUdes net w).1.connsOf 0 = some [⟨"c", 2⟩] := by
  refine ⟨udeRun [.list [⟨"c", 1⟩], .create (some "e") (some 0) .absent true, .add [some 0]],
    [("c", 2)], C82_registry _, ?_, ?_, ?_, ?_⟩
  · unfold Registered; decide +kernel
  all_goals decide +kernel

/-- C82 (lists of the user): a calculation does not change lists of connections passed to
equations, nor parameters. -/
theorem C82_lists_kept (net : Dict String ℕ) (w : UdeWorld) (i : ℕ) (hi : i < w.lists.length) :
    (prepareUdes net w).1.lists[i]? = w.lists[i]? ∧ (prepareUdes net w).1.dicts = w.dicts
      ∧ (prepareUdes net w).1.reg = w.reg := by
  unfold prepareUdes
  generalize w.reg.map Prod.snd = os
  suffices h : ∀ w', i < w'.lists.length → (remapAll net w' os).1.lists[i]? = w'.lists[i]?
      ∧ (remapAll net w' os).1.dicts = w'.dicts ∧ (remapAll net w' os).1.reg = w'.reg from h w hi
  induction os with
  | nil => exact fun w' _ => ⟨rfl, rfl, rfl⟩
  | cons o os ih =>
    intro w' hi'
    simp only [remapAll]
    cases ho : w'.objs[o]? with
    | none => exact ⟨rfl, rfl, rfl⟩
    | some u =>
      simp only []
      cases hr : remapConns net ((w'.lists[u.conns]?).getD []) with
      | error e => exact ⟨rfl, rfl, rfl⟩
      | ok r =>
        simp only []
        obtain ⟨h1, h2, h3⟩ := ih { w' with
          objs := w'.objs.set o { u with conns := w'.lists.length }, lists := w'.lists ++ [r] }
          (by simp only [List.length_append]; omega)
        exact ⟨by rw [h1, List.getElem?_append_left hi'], h2, h3⟩

/-! ### Parameters -/

/-- C82 (parameters): a parameter assigned to an equation is read back from it, and other equations
keep their parameters if they were created with another dictionary. -/
theorem C82_params_partial (w : UdeWorld) (hw : UdeOk w) (o o' : ℕ) (u u' : UdeObj)
    (ho : w.objs[o]? = some u) (ho' : w.objs[o']? = some u') (hne : u.params ≠ u'.params)
    (k : String) (v : Int) :
    (∃ d, (setUdeParam w o k v).paramsOf o = some d ∧ Dict.get? d k = some v
      ∧ ∀ k', k' ≠ k → ∃ d0, w.paramsOf o = some d0 ∧ Dict.get? d k' = Dict.get? d0 k')
    ∧ (setUdeParam w o k v).paramsOf o' = w.paramsOf o' := by
  have hlt := hw.params u (List.mem_of_getElem? ho)
  constructor
  · refine ⟨Dict.set w.dicts[u.params] k v, ?_, by simp [Dict.get?_set], ?_⟩
    · simp [setUdeParam, UdeWorld.paramsOf, ho, List.getElem?_modify, hlt]
    · intro k' hk'
      exact ⟨w.dicts[u.params], by simp [UdeWorld.paramsOf, ho, hlt], by simp [Dict.get?_set, hk']⟩
  · simp [setUdeParam, UdeWorld.paramsOf, ho, ho', List.getElem?_modify, hne]

/-- C82 is false for equations created without parameters: they share one dictionary, a parameter
assigned to the first of them appears in the second. -/
theorem C82_params_false (w w1 w2 : UdeWorld) (hw : UdeOk w) (l1 l2 : String) (c1 c2 o1 o2 : ℕ)
    (h1 : newUde w (some l1) (some c1) .absent true = (w1, .ok o1))
    (h2 : newUde w1 (some l2) (some c2) .absent true = (w2, .ok o2)) (k : String) (v : Int) :
    o1 ≠ o2 ∧ ∃ d, (setUdeParam w2 o1 k v).paramsOf o2 = some d ∧ Dict.get? d k = some v := by
  simp only [newUde, ParamsArg.object, if_true, Prod.mk.injEq, Except.ok.injEq] at h1 h2
  obtain ⟨rfl, rfl⟩ := h1
  obtain ⟨rfl, rfl⟩ := h2
  refine ⟨by simp, Dict.set (w.dicts[0]'hw.default) k v, ?_, by simp [Dict.get?_set]⟩
  simp [setUdeParam, UdeWorld.paramsOf, List.getElem?_modify, hw.default]

/-- C82 (creation): an equation is created exactly if label, connections, parameters and LaTeX information have
the right types, otherwise `TypeError`; it then has the given label and connections and, if given,
the given parameters. -/
theorem C82_create (w : UdeWorld) (label : Option String) (conns : Option ℕ) (params : ParamsArg)
    (x : Bool) :
    ((∃ o, (newUde w label conns params x).2 = .ok o) ↔
      label.isSome ∧ conns.isSome ∧ params ≠ .other ∧ x = true)
    ∧ (∀ e, (newUde w label conns params x).2 = .error e →
        e = .typeError ∧ (newUde w label conns params x).1 = w)
    ∧ (∀ o, (newUde w label conns params x).2 = .ok o → ∃ u,
        (newUde w label conns params x).1.objs[o]? = some u ∧ label = some u.label
        ∧ conns = some u.conns ∧ ∀ n, params = .dict n → u.params = n) := by
  cases label with
  | none => simp [newUde]
  | some l =>
    cases conns with
    | none => simp [newUde]
    | some c =>
      cases params with
      | other => simp [newUde, ParamsArg.object]
      | absent => cases x <;> simp [newUde, ParamsArg.object]
      | dict n => cases x <;> simp [newUde, ParamsArg.object]

/-! ### Examples -/

/-- two equations without parameters and one with parameters, two of them registered -/
def udeExample : UdeWorld := udeRun [.list [⟨"c", 1⟩, ⟨"d", 2⟩], .dict [("x", 5)],
  .create (some "a") (some 0) .absent true, .create (some "b") (some 0) .absent true,
  .create (some "e") (some 0) (.dict 1) true, .add [some 0, some 2]]

theorem udeExample_ok : UdeOk udeExample := C82_registry _

example := C82_add [some 1] udeExample (by decide +kernel)
example := C82_del udeExample udeExample_ok 0 ⟨"a", 0, 0⟩ (by decide +kernel)
example := C82_connections [("c", 1), ("d", 7)] udeExample udeExample_ok (by decide +kernel) "a" 0
  (by unfold Registered; decide +kernel)
example := C82_connections_kept [("c", 1), ("d", 2)] udeExample udeExample_ok (by decide +kernel) "a" 0
  (by unfold Registered; decide +kernel) [⟨"c", 1⟩, ⟨"d", 2⟩] (by decide +kernel) (by decide +kernel)
example : (prepareUdes [("c", 1)] udeExample).2 = some .keyError := by decide +kernel
example := C82_lists_kept [("c", 1), ("d", 7)] udeExample 0 (by decide +kernel)
example := C82_params_partial udeExample udeExample_ok 0 2 ⟨"a", 0, 0⟩ ⟨"e", 0, 1⟩ (by decide +kernel)
  (by decide +kernel) (by decide) "x" 3
example := C82_params_false udeExample _ _ udeExample_ok "p" "q" 0 0 3 4 rfl rfl "x" 3

end Tespy
