import Verif.Model.Lookup
import Verif.Model.Topology
import Verif.Props.Tables
/-!
C101: connections lead from an outlet to an inlet, and a network returns its components and connections under their labels.
-/
namespace Tespy

namespace Spec

/-- A connection leads from an outlet of its source to an inlet of another component. -/
def Leads (c : ConnObj) : Prop :=
  c.source ≠ c.target ∧ c.sourceId ∈ c.source.outlets ∧ c.targetId ∈ c.target.inlets

/-- The text does not contain the character. -/
def Without (ch : Char) (s : String) : Prop := ch ∉ s.toList

end Spec

/-! ### creation -/

/-- **C101 (creation).**  A connection is created exactly if source and target are two different components, the connectors
exist and the label, if there is one, is a text; it has the ends and the label which have been passed. -/
theorem C101_created (id : ℕ) (source : CompArg) (outlet : String) (target : CompArg) (inlet : String) (label : TextArg)
    (c : ConnObj) : newConnection id source outlet target inlet label = .ok c ↔
      source = .comp c.source ∧ target = .comp c.target ∧ c.sourceId = outlet ∧ c.targetId = inlet ∧ c.id = id ∧
      Spec.Leads c ∧ (label = .text c.label ∨ label = .none ∧ c.label = c.source.label ++ ":" ++ outlet ++ "_" ++
        c.target.label ++ ":" ++ inlet) := by
  cases source with
  | other => simp [newConnection]
  | comp s =>
    cases target with
    | other => simp [newConnection]
    | comp t =>
      unfold newConnection Spec.Leads
      dsimp only
      by_cases h1 : s = t
      · rw [if_pos h1]
        constructor
        · intro h; cases h
        · rintro ⟨e1, e2, _, _, _, ⟨h, _⟩, _⟩
          cases e1; cases e2
          exact absurd h1 h
      rw [if_neg h1]
      by_cases h2 : outlet ∈ s.outlets
      · rw [if_neg (not_not.mpr h2)]
        by_cases h3 : inlet ∈ t.inlets
        · rw [if_neg (not_not.mpr h3)]
          obtain ⟨ci, cl, cs, co, ct, cj⟩ := c
          cases label with
          | none =>
            simp only [Except.ok.injEq, ConnObj.mk.injEq, CompArg.comp.injEq, defaultLabel, reduceCtorEq, false_or, true_and]
            constructor
            · rintro ⟨rfl, rfl, rfl, rfl, rfl, rfl⟩
              exact ⟨rfl, rfl, rfl, rfl, rfl, ⟨h1, h2, h3⟩, rfl⟩
            · rintro ⟨rfl, rfl, rfl, rfl, rfl, _, rfl⟩
              exact ⟨rfl, rfl, rfl, rfl, rfl, rfl⟩
          | text l =>
            simp only [Except.ok.injEq, ConnObj.mk.injEq, CompArg.comp.injEq, TextArg.text.injEq, reduceCtorEq, false_and,
              or_false]
            constructor
            · rintro ⟨rfl, rfl, rfl, rfl, rfl, rfl⟩
              exact ⟨rfl, rfl, rfl, rfl, rfl, ⟨h1, h2, h3⟩, rfl⟩
            · rintro ⟨rfl, rfl, rfl, rfl, rfl, _, rfl⟩
              exact ⟨rfl, rfl, rfl, rfl, rfl, rfl⟩
          | other => simp
        · rw [if_pos h3]
          constructor
          · intro h; cases h
          · rintro ⟨e1, e2, e3, e4, _, ⟨_, _, h⟩, _⟩
            cases e1; cases e2; cases e4
            exact absurd h h3
      · rw [if_pos h2]
        constructor
        · intro h; cases h
        · rintro ⟨e1, e2, e3, e4, _, ⟨_, h, _⟩, _⟩
          cases e1; cases e2; cases e3
          exact absurd h h2

/-- **C101 (labels of components).**  A label is accepted exactly if it is a text without `;`, `,` and `.`. -/
theorem C101_component_label (a : TextArg) (s : String) : componentLabel a = .ok s ↔
    a = .text s ∧ Spec.Without ';' s ∧ Spec.Without ',' s ∧ Spec.Without '.' s := by
  cases a with
  | none => simp [componentLabel]
  | other => simp [componentLabel]
  | text t =>
    unfold componentLabel Spec.Without
    dsimp only
    split
    · next h =>
      constructor
      · intro h'; cases h'
      · rintro ⟨e, h1, h2, h3⟩
        cases e
        rcases h with h | h | h
        · exact absurd h h1
        · exact absurd h h2
        · exact absurd h h3
    · next h =>
      push Not at h
      constructor
      · intro h'; cases h'; exact ⟨rfl, h⟩
      · rintro ⟨e, _⟩; cases e; rfl

/-! ### default labels -/

theorem split_unique {α : Type} (x : α) : ∀ {a b c d : List α}, x ∉ a → x ∉ c → a ++ x :: b = c ++ x :: d → a = c ∧ b = d
  | [], b, [], d, _, _, h => by simpa using h
  | [], b, y :: c, d, _, hc, h => by
    simp only [List.nil_append, List.cons_append, List.cons.injEq] at h
    exact absurd (h.1 ▸ List.mem_cons_self) hc
  | y :: a, b, [], d, ha, _, h => by
    simp only [List.nil_append, List.cons_append, List.cons.injEq] at h
    exact absurd (h.1 ▸ List.mem_cons_self) ha
  | y :: a, b, z :: c, d, ha, hc, h => by
    simp only [List.cons_append, List.cons.injEq] at h
    obtain ⟨h1, h2⟩ := split_unique x (fun hm => ha (List.mem_cons_of_mem _ hm)) (fun hm => hc (List.mem_cons_of_mem _ hm)) h.2
    exact ⟨by rw [h.1, h1], h2⟩

theorem string_ext {a b : String} (h : a.toList = b.toList) : a = b := String.toList_inj.mp h

/-- **C101 (default labels), as far as it holds.**  If the labels of components do not contain a colon and the names of
connectors neither a colon nor an underscore, connections with the same default label have ends with the same labels and the
same connectors. -/
theorem C101_default_label_partial (s s' t t' : CompObj) (o o' i i' : String)
    (hs : Spec.Without ':' s.label ∧ Spec.Without ':' s'.label) (ht : Spec.Without ':' t.label ∧ Spec.Without ':' t'.label)
    (ho : Spec.Without ':' o ∧ Spec.Without ':' o') (hu : Spec.Without '_' o ∧ Spec.Without '_' o')
    (h : defaultLabel s o t i = defaultLabel s' o' t' i') :
    s.label = s'.label ∧ o = o' ∧ t.label = t'.label ∧ i = i' := by
  have h1 := congrArg String.toList h
  simp only [defaultLabel, String.toList_append, List.append_assoc] at h1
  have c1 : (":" : String).toList = [':'] := rfl
  have c2 : ("_" : String).toList = ['_'] := rfl
  rw [c1, c2] at h1
  simp only [List.singleton_append] at h1
  obtain ⟨e1, h2⟩ := split_unique ':' hs.1 hs.2 h1
  obtain ⟨e2, h3⟩ := split_unique '_' hu.1 hu.2 h2
  obtain ⟨e3, h4⟩ := split_unique ':' ht.1 ht.2 h3
  exact ⟨string_ext e1, string_ext e2, string_ext e3, string_ext h4⟩

theorem numbered_plain {pre : String} {ch : Char} (hc : ch.isDigit = false) (hp : Spec.Without ch pre) (n : ℕ) :
    ∀ o ∈ numbered pre n, Spec.Without ch o := by
  intro o ho
  obtain ⟨i, _, rfl⟩ := List.mem_map.1 ho
  unfold Spec.Without
  rw [String.toList_append, List.mem_append]
  rintro (h | h)
  · exact hp h
  · have h2 : (toString (i + 1)).toList = Nat.toDigits 10 (i + 1) := by
      show (Nat.repr (i + 1)).toList = _
      simp [Nat.repr]
    rw [h2] at h
    have := Nat.isDigit_of_mem_toDigits (by decide) (by decide) h
    rw [hc] at this
    cases this

/-- The outlets of the components of the package meet the hypotheses on connectors, whatever their number. -/
theorem C101_connector_names (k : Cls) (n : ℕ) : ∀ o ∈ k.outlets n, Spec.Without ':' o ∧ Spec.Without '_' o := by
  have hn : ∀ o ∈ numbered "out" n, Spec.Without ':' o ∧ Spec.Without '_' o := fun o ho =>
    ⟨numbered_plain (by decide) (by unfold Spec.Without; decide) n o ho,
      numbered_plain (by decide) (by unfold Spec.Without; decide) n o ho⟩
  have hf : ∀ o ∈ ["out1", "out2", "out3", "out4"], Spec.Without ':' o ∧ Spec.Without '_' o := by
    unfold Spec.Without; decide
  intro o ho
  cases k <;> simp only [Cls.outlets] at ho <;> first
    | exact hn o ho
    | exact hf o (by revert ho; simp only [List.mem_cons, List.not_mem_nil, or_false]; tauto)

/-! ### access by label -/

theorem getConn_iff {s : NetTab} (h : (s.conns.map ConnObj.label).Nodup) (l : String) (c : ConnObj) :
    s.getConn l = some c ↔ c ∈ s.conns ∧ c.label = l := by
  unfold NetTab.getConn
  generalize s.conns = cs at h
  induction cs with
  | nil => simp
  | cons d cs ih =>
    simp only [List.map_cons, List.nodup_cons] at h
    rw [List.find?_cons]
    by_cases hd : d.label = l
    · have hb : (d.label == l) = true := by simpa using hd
      simp only [hb, Option.some.injEq, List.mem_cons]
      constructor
      · rintro rfl; exact ⟨Or.inl rfl, hd⟩
      · rintro ⟨rfl | hc, hl⟩
        · rfl
        · exact absurd (List.mem_map.mpr ⟨c, hc, by rw [hl, hd]⟩) h.1
    · have hb : (d.label == l) = false := by simpa using hd
      simp only [hb, ih h.2, List.mem_cons]
      constructor
      · rintro ⟨a, b⟩; exact ⟨Or.inr a, b⟩
      · rintro ⟨rfl | hc, hl⟩
        · exact absurd hl hd
        · exact ⟨hc, hl⟩

theorem getConn_none_iff (s : NetTab) (l : String) : s.getConn l = none ↔ ∀ c ∈ s.conns, c.label ≠ l := by
  unfold NetTab.getConn
  simp

/-- **C101 (connections by label).**  After any history of calls, whether they succeed or fail, `get_conn` returns the one
connection of the network which has the label, and nothing if there is none. -/
theorem C101_get_conn (chk : NetTab → Option PyErr) (ops : List TabOp) (l : String) :
    (∀ c, (NetTab.run chk {} ops).getConn l = some c ↔ c ∈ (NetTab.run chk {} ops).conns ∧ c.label = l) ∧
    ((NetTab.run chk {} ops).getConn l = none ↔ ∀ c ∈ (NetTab.run chk {} ops).conns, c.label ≠ l) :=
  ⟨getConn_iff (C11_labels_unique chk ops).conns l, getConn_none_iff _ l⟩

theorem addConnRows_added (args : List (Option ConnObj)) (s : NetTab) (h : (addConnRows args s).2 = none) :
    (addConnRows args s).1.conns = s.conns ++ args.filterMap id ∧
    (∀ a ∈ args, a ≠ none) ∧
    (∀ c ∈ args.filterMap id, ∀ d ∈ s.conns, c.label ≠ d.label) ∧ ((args.filterMap id).map ConnObj.label).Nodup := by
  induction args generalizing s with
  | nil => simp [addConnRows]
  | cons a args ih =>
    cases a with
    | none => cases h
    | some c =>
      unfold addConnRows at h ⊢
      split at h
      · cases h
      · next hn =>
        rw [if_neg hn]
        obtain ⟨h1, h2, h3, h4⟩ := ih _ h
        refine ⟨by rw [h1]; simp, ?_, ?_, ?_⟩
        · intro a ha
          rcases List.mem_cons.1 ha with rfl | ha
          · simp
          · exact h2 a ha
        · intro e he d hd
          simp only [List.filterMap_cons, id_eq, List.mem_cons] at he
          rcases he with rfl | he
          · exact fun hl => hn (List.mem_map.mpr ⟨d, hd, hl.symm⟩)
          · exact h3 e he d (by simp [hd])
        · simp only [List.filterMap_cons, id_eq, List.map_cons, List.nodup_cons]
          refine ⟨fun hm => ?_, h4⟩
          obtain ⟨e, he, hl⟩ := List.mem_map.1 hm
          exact h3 e he c (by simp) hl

theorem delConnRows_left (args : List ConnObj) (s : NetTab) (h : (delConnRows args s).2 = none) :
    ∀ d, d ∈ (delConnRows args s).1.conns ↔ d ∈ s.conns ∧ ∀ c ∈ args, c.label ≠ d.label := by
  induction args generalizing s with
  | nil => simp [delConnRows]
  | cons a args ih =>
    unfold delConnRows at h ⊢
    split at h
    · next hm =>
      rw [if_pos hm]
      intro d
      rw [ih _ h d]
      simp only [List.mem_filter, decide_not, Bool.not_eq_true', decide_eq_false_iff_not, List.mem_cons, forall_eq_or_imp]
      constructor
      · rintro ⟨⟨a1, a2⟩, a3⟩; exact ⟨a1, fun e => a2 e.symm, a3⟩
      · rintro ⟨a1, a2, a3⟩; exact ⟨⟨a1, fun e => a2 e.symm⟩, a3⟩
    · cases h

theorem delComps_conns (cps : List CompObj) (s : NetTab) : (delComps cps s).1.conns = s.conns := by
  induction cps generalizing s with
  | nil => rfl
  | cons cp cps ih =>
    unfold delComps
    split
    · split
      · dsimp only
        split
        · exact ih _
        · rfl
      · rfl
    · exact ih s

/-- **C101 (additions).**  After a successful call of `add_conns` each of the connections is returned under its label, and
under any other label the same as before. -/
theorem C101_added (chk : NetTab → Option PyErr) (ops : List TabOp) (args : List ConnObj)
    (h : ((NetTab.run chk {} ops).addConns (args.map some)).2 = none) :
    (∀ c ∈ args, ((NetTab.run chk {} ops).addConns (args.map some)).1.getConn c.label = some c) ∧
    ∀ l, (∀ c ∈ args, c.label ≠ l) →
      ((NetTab.run chk {} ops).addConns (args.map some)).1.getConn l = (NetTab.run chk {} ops).getConn l := by
  have hl := (C11_labels_unique chk ops).conns
  have hl2 := (step_labelled chk _ (C11_labels_unique chk ops) (.addConns (args.map some))).conns
  generalize NetTab.run chk {} ops = s at h hl hl2
  have hf : (args.map some).filterMap id = args := by simp [List.filterMap_map]
  have hc : (s.addConns (args.map some)).1.conns = s.conns ++ args := by
    unfold NetTab.addConns at h ⊢
    cases hr : addConnRows (args.map some) s with
    | mk s1 e =>
      rw [hr] at h
      cases e with
      | some e => cases h
      | none =>
        have := (addConnRows_added (args.map some) s (by rw [hr])).1
        rw [hr, hf] at this
        dsimp only
        rw [(addComps_frame _ _).1]
        exact this
  change ((s.addConns (args.map some)).1.conns.map ConnObj.label).Nodup at hl2
  refine ⟨fun c hm => ?_, fun l hno => ?_⟩
  · rw [getConn_iff hl2, hc]
    exact ⟨List.mem_append.mpr (Or.inr hm), rfl⟩
  · apply Option.ext
    intro c
    rw [getConn_iff hl2, getConn_iff hl, hc, List.mem_append]
    constructor
    · rintro ⟨a | a, b⟩
      · exact ⟨a, b⟩
      · exact absurd b (hno c a)
    · rintro ⟨a, b⟩; exact ⟨Or.inl a, b⟩

/-- **C101 (deletions).**  After a successful call of `del_conns` nothing is returned under the labels of the connections,
and under any other label the same as before. -/
theorem C101_deleted (chk : NetTab → Option PyErr) (ops : List TabOp) (args : List ConnObj)
    (h : ((NetTab.run chk {} ops).delConns args).2 = none) :
    (∀ c ∈ args, ((NetTab.run chk {} ops).delConns args).1.getConn c.label = none) ∧
    ∀ l, (∀ c ∈ args, c.label ≠ l) →
      ((NetTab.run chk {} ops).delConns args).1.getConn l = (NetTab.run chk {} ops).getConn l := by
  have hl := (C11_labels_unique chk ops).conns
  have hl2 := (step_labelled chk _ (C11_labels_unique chk ops) (.delConns args)).conns
  generalize NetTab.run chk {} ops = s at h hl hl2
  have hc : ∀ d, d ∈ (s.delConns args).1.conns ↔ d ∈ s.conns ∧ ∀ c ∈ args, c.label ≠ d.label := by
    unfold NetTab.delConns at h ⊢
    cases hr : delConnRows args s with
    | mk s1 e =>
      rw [hr] at h
      cases e with
      | some e => cases h
      | none =>
        have h1 := delConnRows_left args s (by rw [hr])
        rw [hr] at h1
        dsimp only at h h1 ⊢
        have h2 := delComps_conns (endpoints args) s1
        cases hd : delComps (endpoints args) s1 with
        | mk s2 e2 =>
          rw [hd] at h h2
          cases e2 with
          | some e => cases h
          | none =>
            dsimp only at h2 ⊢
            rw [h2]
            exact h1
  change ((s.delConns args).1.conns.map ConnObj.label).Nodup at hl2
  refine ⟨fun c hm => ?_, fun l hno => ?_⟩
  · rw [getConn_none_iff]
    intro d hd hdl
    exact ((hc d).1 hd).2 c hm hdl.symm
  · apply Option.ext
    intro c
    rw [getConn_iff hl2, getConn_iff hl, hc]
    constructor
    · rintro ⟨⟨a, _⟩, b⟩; exact ⟨a, b⟩
    · rintro ⟨a, b⟩; exact ⟨⟨a, fun d hd => b ▸ hno d hd⟩, b⟩

/-- **C101 (components by label), as far as it holds.**  After a history of successful calls, in which connections are
deleted by passing the objects of the network, `get_comp` returns the component with the label at the ends of the
connections, and nothing if there is none. -/
theorem C101_get_comp_partial (chk : NetTab → Option PyErr) (ops : List TabOp) (h : NetTab.Clean chk {} ops) (l : String) :
    (∀ cp, (NetTab.run chk {} ops).getComp l = some cp ↔
      cp.label = l ∧ ∃ k c, (NetTab.run chk {} ops).getConn k = some c ∧ (cp = c.source ∨ cp = c.target)) ∧
    ((NetTab.run chk {} ops).getComp l = none ↔
      ∀ k c, (NetTab.run chk {} ops).getConn k = some c → c.source.label ≠ l ∧ c.target.label ≠ l) := by
  have hL := C11_labels_unique chk ops
  have hE := C11_components_exact_partial chk ops h
  generalize NetTab.run chk {} ops = s at hL hE
  have key : ∀ cp, s.getComp l = some cp ↔
      cp.label = l ∧ ∃ k c, s.getConn k = some c ∧ (cp = c.source ∨ cp = c.target) := by
    intro cp
    unfold NetTab.getComp
    constructor
    · intro hg
      have hm := Dict.mem_of_get? hg
      have hk := hL.compKey _ hm
      dsimp only at hk
      rw [← hk] at hm
      obtain ⟨c, hc, hcp⟩ := (hE cp).1 hm
      exact ⟨hk, c.label, c, (getConn_iff hL.conns _ _).2 ⟨hc, rfl⟩, hcp⟩
    · rintro ⟨rfl, k, c, hc, hcp⟩
      have hm := (hE cp).2 ⟨c, ((getConn_iff hL.conns _ _).1 hc).1, hcp⟩
      exact Dict.get?_of_mem hL.comps hm
  refine ⟨key, ?_⟩
  constructor
  · intro hn k c hc
    refine ⟨fun e => ?_, fun e => ?_⟩
    · have := (key c.source).2 ⟨e, k, c, hc, Or.inl rfl⟩
      rw [hn] at this; cases this
    · have := (key c.target).2 ⟨e, k, c, hc, Or.inr rfl⟩
      rw [hn] at this; cases this
  · intro ha
    cases hg : s.getComp l with
    | none => rfl
    | some cp =>
      obtain ⟨e, k, c, hc, rfl | rfl⟩ := (key cp).1 hg
      · exact absurd e (ha k c hc).1
      · exact absurd e (ha k c hc).2

/-! ### subsystems -/

theorem run_append (chk : NetTab → Option PyErr) (ops ops' : List TabOp) (s : NetTab) :
    NetTab.run chk s (ops ++ ops') = NetTab.run chk (NetTab.run chk s ops) ops' := by
  induction ops generalizing s with
  | nil => rfl
  | cons op ops ih => exact ih _

/-- **C101 (subsystems).**  A successful call of `add_subsys` is the same as adding the connections of all subsystems one after
the other; each call succeeds. -/
theorem C101_subsystems (chk : NetTab → Option PyErr) (subs : List (List (Option ConnObj))) (s : NetTab)
    (h : (NetTab.addSubsys subs s).2 = none) :
    (NetTab.addSubsys subs s).1 = NetTab.run chk s (subs.flatten.map (fun c => .addConns [c])) ∧
    NetTab.Clean chk s (subs.flatten.map (fun c => .addConns [c])) := by
  have one : ∀ (cs : List (Option ConnObj)) (s : NetTab) (rest : List TabOp), (addOneByOne cs s).2 = none →
      (addOneByOne cs s).1 = NetTab.run chk s (cs.map (fun c => .addConns [c])) ∧
      (NetTab.Clean chk (addOneByOne cs s).1 rest → NetTab.Clean chk s (cs.map (fun c => .addConns [c]) ++ rest)) := by
    intro cs
    induction cs with
    | nil => intro s rest _; exact ⟨rfl, fun h => h⟩
    | cons c cs ih =>
      intro s rest h
      unfold addOneByOne at h ⊢
      cases hr : s.addConns [c] with
      | mk s1 e =>
        rw [hr] at h
        cases e with
        | some e => cases h
        | none =>
          dsimp only at h ⊢
          obtain ⟨h1, h2⟩ := ih s1 rest h
          have hs : (s.step chk (.addConns [c])) = (s1, none) := hr
          refine ⟨?_, fun hc => ?_⟩
          · rw [h1]
            simp only [List.map_cons, NetTab.run, hs]
          · refine ⟨by rw [hs], trivial, ?_⟩
            rw [hs]
            exact h2 hc
  induction subs generalizing s with
  | nil => exact ⟨rfl, trivial⟩
  | cons sub subs ih =>
    unfold NetTab.addSubsys at h ⊢
    cases hr : addOneByOne sub s with
    | mk s1 e =>
      rw [hr] at h
      cases e with
      | some e => cases h
      | none =>
        dsimp only at h ⊢
        obtain ⟨h1, h2⟩ := ih s1 h
        obtain ⟨h3, h4⟩ := one sub s (subs.flatten.map (fun c => .addConns [c])) (by rw [hr])
        rw [hr] at h3 h4
        rw [List.flatten_cons, List.map_append]
        refine ⟨?_, h4 h2⟩
        rw [run_append, ← h3]
        exact h1

/-! ### concrete cases -/

/-- a source, a valve and a sink -/
def lkSrc : CompObj := ⟨0, "source", "Source", [], ["out1"]⟩
def lkVal : CompObj := ⟨1, "valve", "Valve", ["in1"], ["out1"]⟩
def lkSnk : CompObj := ⟨2, "sink", "Sink", ["in1"], []⟩
def lkC1 : ConnObj := ⟨0, "1", lkSrc, "out1", lkVal, "in1"⟩
def lkC2 : ConnObj := ⟨1, "valve:out1_sink:in1", lkVal, "out1", lkSnk, "in1"⟩

-- a connection which is created, and three which are not
example : newConnection 1 (.comp lkVal) "out1" (.comp lkSnk) "in1" .none = .ok lkC2 ∧
    newConnection 1 (.comp lkVal) "out2" (.comp lkSnk) "in1" .none = .error .valueError ∧
    newConnection 1 (.comp lkVal) "out1" (.comp lkVal) "in1" .none = .error .connectionError ∧
    newConnection 1 (.comp lkVal) "out1" .other "in1" .none = .error .typeError := by
  decide +kernel

-- the hypotheses of `C101_added`, `C101_deleted`, `C101_get_comp_partial` and `C101_subsystems` are met
example : ((NetTab.run (fun _ => none) {} [.addConns [some lkC1]]).addConns ([lkC2].map some)).2 = none ∧
    ((NetTab.run (fun _ => none) {} [.addConns [some lkC1, some lkC2], .solve]).delConns [lkC2]).2 = none ∧
    (NetTab.run (fun _ => none) {} [.addConns [some lkC1, some lkC2]]).getComp "valve" = some lkVal ∧
    (NetTab.addSubsys [[some lkC1], [some lkC2]] {}).2 = none := by
  decide +kernel
example : NetTab.Clean (fun _ => none) {} [.addConns [some lkC1, some lkC2], .solve, .delConns [lkC2]] := by
  refine ⟨by decide +kernel, trivial, by decide +kernel, trivial, by decide +kernel, ?_, trivial⟩
  intro c hc
  simp at hc; subst hc; decide +kernel
-- the hypotheses of `C101_default_label_partial` are met
example : Spec.Without ':' lkVal.label ∧ Spec.Without ':' lkSnk.label ∧ Spec.Without ':' "out1" ∧ Spec.Without '_' "out1" := by
  unfold Spec.Without; decide +kernel

/-- components with the labels `a`, `b:out1_c`, `a:out1_b` and `c` -/
def lkA : CompObj := ⟨0, "a", "Source", [], ["out1"]⟩
def lkB : CompObj := ⟨1, "b:out1_c", "Sink", ["in1"], []⟩
def lkD : CompObj := ⟨2, "a:out1_b", "Source", [], ["out1"]⟩
def lkE : CompObj := ⟨3, "c", "Sink", ["in1"], []⟩

/-- C101 is false for default labels: two connections between four components with different, valid labels have the same
default label, and the network rejects the second one. -/
theorem C101_default_label_false : ∃ (a b d e : CompObj) (c c' : ConnObj), a ≠ d ∧ b ≠ e ∧
    [a.label, b.label, d.label, e.label].Nodup ∧
    (∀ cp ∈ [a, b, d, e], componentLabel (.text cp.label) = .ok cp.label) ∧
    newConnection 0 (.comp a) "out1" (.comp b) "in1" .none = .ok c ∧
    newConnection 1 (.comp d) "out1" (.comp e) "in1" .none = .ok c' ∧ c ≠ c' ∧ c.label = c'.label ∧
    ((NetTab.addConns {} [some c]).1.addConns [some c']).2 = some .valueError :=
  ⟨lkA, lkB, lkD, lkE, ⟨0, "a:out1_b:out1_c:in1", lkA, "out1", lkB, "in1"⟩, ⟨1, "a:out1_b:out1_c:in1", lkD, "out1", lkE, "in1"⟩,
    by decide +kernel⟩

/-- C101 is false for components if a call has failed: a connection whose second component has the label of another component
is in the network and is returned by `get_conn`, but its target is not returned by `get_comp`. -/
theorem C101_get_comp_false : ∃ (c d : ConnObj) (s : NetTab), Spec.Leads c ∧ Spec.Leads d ∧
    s = NetTab.run (fun _ => none) {} [.addConns [some c], .addConns [some d]] ∧
    s.getConn d.label = some d ∧ s.getComp d.target.label = some c.target ∧ c.target ≠ d.target :=
  ⟨⟨0, "1", lkSrc, "out1", lkSnk, "in1"⟩, ⟨1, "2", ⟨5, "source 2", "Source", [], ["out1"]⟩, "out1", ⟨6, "sink", "Sink", ["in1"], []⟩, "in1"⟩,
    _, by unfold Spec.Leads; decide +kernel, by unfold Spec.Leads; decide +kernel, rfl, by decide +kernel, by decide +kernel,
    by decide +kernel⟩

end Tespy
