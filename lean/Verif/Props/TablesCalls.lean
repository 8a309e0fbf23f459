import Verif.Props.Tables
/-
C11: what the calls which add and delete user defined equations and busses do, for all arguments.
-/
namespace Tespy

namespace Spec

/-- the labels of the arguments of a call -/
def labels (args : List LabObj) : List String := args.map LabObj.label

end Spec

theorem erase_eq_filter {β : Type} (d : Dict String β) (hn : d.keys.Nodup) (k : String) :
    d.erase k = d.filter (fun e => decide (e.1 ≠ k)) := by
  induction d with
  | nil => rfl
  | cons e d ih =>
    obtain ⟨k', b⟩ := e
    simp only [Dict.keys, List.map_cons, List.nodup_cons] at hn
    unfold Dict.erase
    by_cases h : k = k'
    · rw [if_pos h, List.filter_cons]
      have : decide ((k', b).1 ≠ k) = false := by simp [h]
      rw [this]
      simp only [Bool.false_eq_true, if_false]
      refine (List.filter_eq_self.2 fun e he => decide_eq_true ?_).symm
      intro hk
      exact hn.1 (List.mem_map.2 ⟨e, he, by rw [hk, h]⟩)
    · rw [if_neg h, List.filter_cons]
      have : decide ((k', b).1 ≠ k) = true := decide_eq_true (fun hk => h hk.symm)
      rw [this, if_pos rfl, ih hn.2]

theorem keys_filter {β : Type} (d : Dict String β) (p : String → Bool) :
    Dict.keys (d.filter (fun e => p e.1)) = d.keys.filter p := by
  induction d with
  | nil => rfl
  | cons e d ih =>
    simp only [Dict.keys, List.map_cons, List.filter_cons] at ih ⊢
    by_cases h : p e.1 = true
    · simp only [h, if_true, List.map_cons, ih]
    · simp only [h, if_false, ih, Bool.false_eq_true]

theorem mem_keys_filter {β : Type} (d : Dict String β) (k a : String) :
    a ∈ Dict.keys (d.filter (fun e => decide (e.1 ≠ k))) ↔ a ∈ d.keys ∧ a ≠ k := by
  rw [keys_filter d (fun x => decide (x ≠ k)), List.mem_filter, decide_eq_true_eq]

/-- C11: `del_ude` succeeds exactly if every passed object has the label of an equation of the
network, no label twice; then exactly the equations with these labels are removed and nothing else
changes. Otherwise it raises `KeyError`. -/
theorem C11_del_ude (chk : NetTab → Option PyErr) (s : NetTab) (hl : s.Labelled) (args : List LabObj) :
    ((s.step chk (.delUde args)).2 = none
      ↔ (Spec.labels args).Nodup ∧ ∀ l ∈ Spec.labels args, l ∈ s.udes.keys)
    ∧ ((s.step chk (.delUde args)).2 = none → (s.step chk (.delUde args)).1
        = { s with udes := s.udes.filter (fun e => decide (e.1 ∉ Spec.labels args)) })
    ∧ ((s.step chk (.delUde args)).2 = none ∨ (s.step chk (.delUde args)).2 = some .keyError) := by
  simp only [NetTab.step]
  have hn := hl.udes
  clear hl
  induction args generalizing s with
  | nil =>
    refine ⟨by simp [delUdeLoop, Spec.labels], fun _ => ?_, Or.inl rfl⟩
    simp only [delUdeLoop, Spec.labels, List.map_nil, List.not_mem_nil, not_false_eq_true, decide_true,
      List.filter_true]
  | cons u args ih =>
    unfold delUdeLoop
    by_cases hu : u.label ∈ s.udes.keys
    · rw [if_pos hu]
      obtain ⟨h1, h2, h3⟩ := ih { s with udes := s.udes.erase u.label } (Dict.nodup_keys_erase _ hn)
      refine ⟨?_, ?_, h3⟩
      · rw [h1]
        simp only [erase_eq_filter _ hn, mem_keys_filter, Spec.labels, List.map_cons,
          List.nodup_cons, List.mem_cons]
        constructor
        · rintro ⟨ha, hb⟩
          refine ⟨⟨fun hc => (hb _ hc).2 rfl, ha⟩, ?_⟩
          rintro l (rfl | hc)
          · exact hu
          · exact (hb l hc).1
        · rintro ⟨⟨ha, hb⟩, hc⟩
          exact ⟨hb, fun l hl => ⟨hc l (Or.inr hl), fun he => ha (he ▸ hl)⟩⟩
      · intro h
        rw [h2 h]
        simp only [erase_eq_filter _ hn, List.filter_filter, Spec.labels, List.map_cons, List.mem_cons, not_or]
        congr 1
        refine List.filter_congr fun e _ => ?_
        by_cases h1 : e.1 = u.label <;> by_cases h2 : e.1 ∈ List.map LabObj.label args <;> simp [h1, h2]
    · rw [if_neg hu]
      refine ⟨?_, fun h => (by simp at h), Or.inr rfl⟩
      constructor
      · intro h; simp at h
      · rintro ⟨-, h⟩
        exact absurd (h u.label (by simp [Spec.labels])) hu

/-- C11: `add_ude` succeeds exactly if all arguments are user defined equations and their labels are
new, none twice; then the equations are appended under their labels and nothing else changes. -/
theorem C11_add_ude (chk : NetTab → Option PyErr) (s : NetTab) (args : List (Option LabObj)) :
    ((s.step chk (.addUde args)).2 = none ↔ none ∉ args
      ∧ (Spec.labels (args.filterMap id)).Nodup ∧ ∀ l ∈ Spec.labels (args.filterMap id), l ∉ s.udes.keys)
    ∧ ((s.step chk (.addUde args)).2 = none → (s.step chk (.addUde args)).1
        = { s with udes := s.udes ++ (args.filterMap id).map (fun u => (u.label, u)) }) := by
  simp only [NetTab.step]
  induction args generalizing s with
  | nil => simp [addUdeLoop, Spec.labels]
  | cons a args ih =>
    cases a with
    | none => simp [addUdeLoop]
    | some u =>
      unfold addUdeLoop
      by_cases hu : u.label ∈ s.udes.keys
      · rw [if_pos hu]
        refine ⟨?_, fun h => (by simp at h)⟩
        constructor
        · intro h; simp at h
        · rintro ⟨-, -, h⟩
          exact absurd hu (h u.label (by simp [Spec.labels]))
      · rw [if_neg hu]
        obtain ⟨h1, h2⟩ := ih { s with udes := s.udes.set u.label u }
        simp only [Dict.set_of_not_mem _ hu] at h1 h2 ⊢
        refine ⟨?_, ?_⟩
        · rw [h1]
          simp only [Spec.labels, List.filterMap_cons, id, List.map_cons, List.nodup_cons, List.mem_cons,
            Dict.keys, List.map_append, List.mem_append, List.map_nil, List.not_mem_nil, or_false, reduceCtorEq,
            false_or]
          constructor
          · rintro ⟨ha, hb, hc⟩
            refine ⟨ha, ⟨fun h => (hc _ h) (Or.inr rfl), hb⟩, ?_⟩
            rintro l (rfl | hl)
            · exact hu
            · exact fun h => hc l hl (Or.inl h)
          · rintro ⟨ha, ⟨hb, hc⟩, hd⟩
            refine ⟨ha, hc, ?_⟩
            rintro l hl (h | rfl)
            · exact hd l (Or.inr hl) h
            · exact hb hl
        · intro h
          rw [h2 h]
          simp [List.filterMap_cons]

/-- C11: `add_busses` succeeds exactly if all arguments are busses and their labels are new, none
twice; then the busses are appended under their labels, each has a table for its results, and
connections, components, equations and the check of the network stay. -/
theorem C11_add_busses (chk : NetTab → Option PyErr) (s : NetTab) (hl : s.Labelled)
    (args : List (Option LabObj)) :
    ((s.step chk (.addBusses args)).2 = none ↔ none ∉ args
      ∧ (Spec.labels (args.filterMap id)).Nodup
      ∧ ∀ l ∈ Spec.labels (args.filterMap id), l ∉ s.busses.keys)
    ∧ ((s.step chk (.addBusses args)).2 = none →
        (s.step chk (.addBusses args)).1.busses
          = s.busses ++ (args.filterMap id).map (fun u => (u.label, u))
        ∧ (∀ t, t ∈ (s.step chk (.addBusses args)).1.results
          ↔ t ∈ s.results ∨ t ∈ Spec.labels (args.filterMap id))
        ∧ (s.step chk (.addBusses args)).1.conns = s.conns
        ∧ (s.step chk (.addBusses args)).1.comps = s.comps
        ∧ (s.step chk (.addBusses args)).1.udes = s.udes
        ∧ (s.step chk (.addBusses args)).1.checked = s.checked) := by
  simp only [NetTab.step]
  have hk := hl.busKey
  clear hl
  induction args generalizing s with
  | nil => simp [addBusLoop, Spec.labels]
  | cons a args ih =>
    cases a with
    | none => simp [addBusLoop]
    | some u =>
      unfold addBusLoop
      have hval : u ∈ s.busses.map Prod.snd → u.label ∈ s.busses.keys := by
        intro h
        obtain ⟨e, he, rfl⟩ := List.mem_map.1 h
        exact List.mem_map.2 ⟨e, he, (hk e he).symm⟩
      by_cases hu : u.label ∈ s.busses.keys
      · have hcase : (if u ∈ s.busses.map Prod.snd then (s, some PyErr.networkError)
            else if u.label ∈ s.busses.keys then (s, some PyErr.networkError)
            else addBusLoop args { s with
              busses := s.busses.set u.label u
              results := if u.label ∈ s.results then s.results else s.results ++ [u.label] })
            = (s, some PyErr.networkError) := by
          rw [if_pos hu, ite_self]
        rw [hcase]
        refine ⟨?_, fun h => (by simp at h)⟩
        constructor
        · intro h; simp at h
        · rintro ⟨-, -, h⟩
          exact absurd hu (h u.label (by simp [Spec.labels]))
      · rw [if_neg (fun h => hu (hval h)), if_neg hu]
        obtain ⟨h1, h2⟩ := ih { s with
          busses := s.busses.set u.label u
          results := if u.label ∈ s.results then s.results else s.results ++ [u.label] } (by
            rw [Dict.set_of_not_mem _ hu]
            intro e he
            rcases List.mem_append.1 he with he | he
            · exact hk e he
            · rw [List.mem_singleton] at he; subst he; rfl)
        simp only [Dict.set_of_not_mem _ hu] at h1 h2 ⊢
        refine ⟨?_, ?_⟩
        · rw [h1]
          simp only [Spec.labels, List.filterMap_cons, id, List.map_cons, List.nodup_cons, List.mem_cons,
            Dict.keys, List.map_append, List.mem_append, List.map_nil, List.not_mem_nil, or_false, reduceCtorEq,
            false_or]
          constructor
          · rintro ⟨ha, hb, hc⟩
            refine ⟨ha, ⟨fun h => (hc _ h) (Or.inr rfl), hb⟩, ?_⟩
            rintro l (rfl | hl)
            · exact hu
            · exact fun h => hc l hl (Or.inl h)
          · rintro ⟨ha, ⟨hb, hc⟩, hd⟩
            refine ⟨ha, hc, ?_⟩
            rintro l hl (h | rfl)
            · exact hd l (Or.inr hl) h
            · exact hb hl
        · intro h
          obtain ⟨a1, a2, a3⟩ := h2 h
          refine ⟨by rw [a1]; simp [List.filterMap_cons], fun t => ?_, a3⟩
          rw [a2 t]
          simp only [Spec.labels, List.filterMap_cons, id, List.map_cons, List.mem_cons]
          split
          · rename_i hr
            constructor
            · rintro (h | h)
              · exact Or.inl h
              · exact Or.inr (Or.inr h)
            · rintro (h | rfl | h)
              · exact Or.inl h
              · exact Or.inl hr
              · exact Or.inr h
          · simp only [List.mem_append, List.mem_singleton]
            tauto

/-- Every bus of the network has a table for its results. -/
def NetTab.BusTables (s : NetTab) : Prop := ∀ l ∈ s.busses.keys, l ∈ s.results

theorem delBusLoop_spec (args : List LabObj) (s : NetTab) (hl : s.Labelled) (hb : s.BusTables) :
    (delBusLoop args s).2 = none
    ∧ (delBusLoop args s).1.busses = s.busses.filter (fun e => decide (e.2 ∉ args))
    ∧ (delBusLoop args s).1.BusTables := by
  induction args generalizing s with
  | nil =>
    refine ⟨rfl, ?_, hb⟩
    simp only [delBusLoop, List.not_mem_nil, not_false_eq_true, decide_true, List.filter_true]
  | cons b args ih =>
    unfold delBusLoop
    by_cases hm : b ∈ s.busses.map Prod.snd
    · rw [if_pos hm]
      obtain ⟨e, he, rfl⟩ := List.mem_map.1 hm
      have hkey : e.2.label ∈ s.busses.keys := List.mem_map.2 ⟨e, he, (hl.busKey e he).symm⟩
      dsimp only
      rw [if_pos (hb _ hkey)]
      have hl' : NetTab.Labelled { s with
          busses := s.busses.erase e.2.label
          results := s.results.filter (· ≠ e.2.label) } :=
        { hl with busses := Dict.nodup_keys_erase _ hl.busses,
                  busKey := fun x hx => hl.busKey x ((Dict.erase_sublist _ _).subset hx) }
      obtain ⟨h1, h2, h3⟩ := ih _ hl' (by
        intro l hx
        simp only [erase_eq_filter _ hl.busses, mem_keys_filter] at hx
        exact List.mem_filter.2 ⟨hb l hx.1, decide_eq_true hx.2⟩)
      refine ⟨h1, ?_, h3⟩
      rw [h2]
      simp only [erase_eq_filter _ hl.busses, List.filter_filter, List.mem_cons, not_or]
      refine List.filter_congr fun x hx => ?_
      have hiff : x.1 = e.2.label ↔ x.2 = e.2 := by
        rw [hl.busKey e he]
        constructor
        · intro h
          have h1 := Dict.get?_of_mem hl.busses (k := x.1) (b := x.2) hx
          have h2 := Dict.get?_of_mem hl.busses (k := e.1) (b := e.2) he
          rw [h, h2] at h1
          exact (Option.some.inj h1).symm
        · intro h
          rw [← hl.busKey x hx, ← hl.busKey e he, h]
      by_cases h1 : x.2 = e.2
      · have := hiff.2 h1
        simp [h1, this]
      · have : x.1 ≠ e.2.label := fun h => h1 (hiff.1 h)
        by_cases h2 : x.2 ∈ args <;> simp [h1, this, h2]
    · rw [if_neg hm]
      obtain ⟨h1, h2, h3⟩ := ih s hl hb
      refine ⟨h1, ?_, h3⟩
      rw [h2]
      refine List.filter_congr fun x hx => ?_
      have : x.2 ≠ b := fun h => hm (List.mem_map.2 ⟨x, hx, h⟩)
      simp [this]

theorem addBus_tables (args : List (Option LabObj)) (s : NetTab) (hb : s.BusTables) :
    (addBusLoop args s).1.BusTables := by
  induction args generalizing s with
  | nil => exact hb
  | cons a args ih =>
    cases a with
    | none => exact hb
    | some u =>
      unfold addBusLoop
      split
      · exact hb
      · split
        · exact hb
        · rename_i hu
          apply ih
          intro l hl
          simp only [Dict.set_of_not_mem _ hu, Dict.keys, List.map_append, List.map_cons, List.map_nil,
            List.mem_append, List.mem_singleton] at hl
          dsimp only
          split
          · rename_i hr
            rcases hl with hl | rfl
            · exact hb l hl
            · exact hr
          · rcases hl with hl | rfl
            · exact List.mem_append_left _ (hb l hl)
            · exact List.mem_append_right _ (List.mem_singleton_self _)

theorem ude_busses (args : List (Option LabObj)) (args' : List LabObj) (s : NetTab) :
    ((addUdeLoop args s).1.busses = s.busses ∧ (addUdeLoop args s).1.results = s.results)
    ∧ (delUdeLoop args' s).1.busses = s.busses ∧ (delUdeLoop args' s).1.results = s.results := by
  constructor
  · induction args generalizing s with
    | nil => exact ⟨rfl, rfl⟩
    | cons a args ih =>
      cases a with
      | none => exact ⟨rfl, rfl⟩
      | some u =>
        unfold addUdeLoop
        split
        · exact ⟨rfl, rfl⟩
        · exact ih _
  · induction args' generalizing s with
    | nil => exact ⟨rfl, rfl⟩
    | cons u args ih =>
      unfold delUdeLoop
      split
      · exact ih _
      · exact ⟨rfl, rfl⟩

theorem step_busTables (chk : NetTab → Option PyErr) (s : NetTab) (h : s.Labelled) (hb : s.BusTables)
    (op : TabOp) : (s.step chk op).1.BusTables := by
  have lift : ∀ t : NetTab, t.busses = s.busses → t.results = s.results → t.BusTables := by
    intro t h1 h2
    unfold NetTab.BusTables
    rw [h1, h2]; exact hb
  cases op with
  | addConns args =>
    obtain ⟨-, h2, -, h4, -⟩ := addConnRows_spec args s
    simp only [NetTab.step, NetTab.addConns]
    split
    · rename_i s1 e he; rw [he] at h2 h4; exact lift _ h2 h4
    · rename_i s1 he
      rw [he] at h2 h4
      have hf := addComps_frame (endpoints (args.filterMap id)) s1
      exact lift _ (hf.2.1.trans h2) (hf.2.2.2.1.trans h4)
  | delConns args =>
    obtain ⟨-, h2, -, h4, -⟩ := delConnRows_spec args s
    simp only [NetTab.step, NetTab.delConns]
    split
    · rename_i s1 e he; rw [he] at h2 h4; exact lift _ h2 h4
    · rename_i s1 he
      rw [he] at h2 h4
      obtain ⟨-, g2, -, g4, -⟩ := delComps_spec (endpoints args) s1
      split
      · rename_i s2 e he2; rw [he2] at g2 g4; exact lift _ (g2.trans h2) (g4.trans h4)
      · rename_i s2 he2; rw [he2] at g2 g4; exact lift _ (g2.trans h2) (g4.trans h4)
  | addUde args => exact lift _ (ude_busses args [] s).1.1 (ude_busses args [] s).1.2
  | delUde args => exact lift _ (ude_busses [] args s).2.1 (ude_busses [] args s).2.2
  | addBusses args => exact addBus_tables args s hb
  | delBusses args => exact (delBusLoop_spec args s h hb).2.2
  | solve =>
    simp only [NetTab.step]
    by_cases hc : s.conns = []
    · simp only [NetTab.solveStart, NetTab.checkNetwork, if_pos hc]
      split <;> exact hb
    · cases hn : s.checked with
      | true => simp only [NetTab.solveStart, hn, if_true]; exact hb
      | false =>
        have hr := (C11_result_tables chk s hc hn).1
        simp only [NetTab.step] at hr
        have hbus : (s.solveStart chk).1.busses = s.busses := by
          simp only [NetTab.solveStart, NetTab.checkNetwork, withResultTables, hn, Bool.false_eq_true, if_false,
            if_neg hc]
          split <;> rfl
        intro l hl
        rw [hbus] at hl
        exact (hr l).2 (Or.inl (hb l hl))

theorem run_busTables (chk : NetTab → Option PyErr) (s : NetTab) (h : s.Labelled) (hb : s.BusTables)
    (ops : List TabOp) : (NetTab.run chk s ops).BusTables := by
  induction ops generalizing s with
  | nil => exact hb
  | cons op ops ih => exact ih _ (step_labelled chk s h op) (step_busTables chk s h hb op)

/-- C11: after every history of calls, including failing ones, each bus of the network has a table
for its results, and `del_busses` never raises: exactly the passed busses are removed, busses that
are not part of the network are passed over. -/
theorem C11_del_busses (chk : NetTab → Option PyErr) (ops : List TabOp) (args : List LabObj) :
    (∀ b ∈ (NetTab.run chk {} ops).busses, b.2.label ∈ (NetTab.run chk {} ops).results)
    ∧ ((NetTab.run chk {} ops).step chk (.delBusses args)).2 = none
    ∧ ∀ b, b ∈ ((NetTab.run chk {} ops).step chk (.delBusses args)).1.busses.map Prod.snd
      ↔ b ∈ (NetTab.run chk {} ops).busses.map Prod.snd ∧ b ∉ args := by
  have hl := C11_labels_unique chk ops
  have hb := run_busTables chk {} (C11_labels_unique chk []) (by simp [NetTab.BusTables, Dict.keys]) ops
  obtain ⟨h1, h2, -⟩ := delBusLoop_spec args _ hl hb
  refine ⟨fun b hm => ?_, h1, fun b => ?_⟩
  · rw [hl.busKey b hm]
    exact hb _ (List.mem_map.2 ⟨b, hm, rfl⟩)
  · simp only [NetTab.step]
    rw [h2]
    simp only [List.mem_map, List.mem_filter, decide_eq_true_eq]
    constructor
    · rintro ⟨e, ⟨he, hn⟩, rfl⟩; exact ⟨⟨e, he, rfl⟩, hn⟩
    · rintro ⟨⟨e, he, rfl⟩, hn⟩; exact ⟨e, ⟨he, hn⟩, rfl⟩

/-- C11: a successful `add_conns` appends exactly the passed connections, in their order, all their
ends are components of the network, no component is lost, and the network has to be checked again. -/
theorem C11_add_conns (chk : NetTab → Option PyErr) (s : NetTab) (hl : s.Labelled)
    (args : List (Option ConnObj)) (ho : (s.step chk (.addConns args)).2 = none) :
    (s.step chk (.addConns args)).1.conns = s.conns ++ args.filterMap id
    ∧ (∀ c ∈ args.filterMap id, (c.source.label, c.source) ∈ (s.step chk (.addConns args)).1.comps
        ∧ (c.target.label, c.target) ∈ (s.step chk (.addConns args)).1.comps)
    ∧ (∀ e ∈ s.comps, e ∈ (s.step chk (.addConns args)).1.comps)
    ∧ (args.filterMap id ≠ [] → (s.step chk (.addConns args)).1.checked = false) := by
  obtain ⟨h1, -, -, -, -, -, h7, h8⟩ := addConnRows_spec args s
  simp only [NetTab.step, NetTab.addConns] at ho ⊢
  cases hr : addConnRows args s with
  | mk s1 e =>
    rw [hr] at h1 h7 h8 ho
    cases e with
    | some e => simp at ho
    | none =>
      simp only at ho h1 h7 h8 ⊢
      obtain ⟨f1, -, -, -, f5, -⟩ := addComps_frame (endpoints (args.filterMap id)) s1
      have hc := addComps_comps (endpoints (args.filterMap id)) s1 (by rw [h1]; exact hl.comps)
        (by rw [h1]; exact hl.compKey)
      have hmem := hc.2.2 ho
      refine ⟨f1.trans (h8 trivial), fun c hcm => ⟨?_, ?_⟩, fun e he => ?_, fun hne => ?_⟩
      · exact (hmem _).2 (Or.inr ((mem_endpoints _ _).2 ⟨c, hcm, Or.inl rfl⟩))
      · exact (hmem _).2 (Or.inr ((mem_endpoints _ _).2 ⟨c, hcm, Or.inr rfl⟩))
      · have hk := hl.compKey e he
        have := (hmem e.2).2 (Or.inl (by rw [h1, hk]; exact he))
        rwa [hk] at this
      · rw [f5]
        cases hch : s1.checked with
        | false => rfl
        | true =>
          have he := h7 hch
          have h9 := h8 trivial
          rw [he] at h9
          exact absurd (List.self_eq_append_right.1 h9) hne

/-- C11: a successful `del_conns` removes exactly the connections with the labels of the passed
ones, all of which were there, and the network has to be checked again. -/
theorem C11_del_conns (chk : NetTab → Option PyErr) (s : NetTab) (args : List ConnObj)
    (ho : (s.step chk (.delConns args)).2 = none) :
    (s.step chk (.delConns args)).1.conns
      = s.conns.filter (fun d => decide (d.label ∉ args.map ConnObj.label))
    ∧ (∀ c ∈ args, c.label ∈ s.conns.map ConnObj.label)
    ∧ (s.step chk (.delConns args)).1.checked = false := by
  obtain ⟨-, -, -, -, h5, h6⟩ := delConnRows_spec args s
  have hreg : (delConnRows args s).2 = none → ∀ c ∈ args, c.label ∈ s.conns.map ConnObj.label := by
    clear ho h5 h6
    induction args generalizing s with
    | nil => intro _ c hc; cases hc
    | cons a args ih =>
      unfold delConnRows
      by_cases ha : a.label ∈ s.conns.map ConnObj.label
      · rw [if_pos ha]
        intro h c hc
        rcases List.mem_cons.1 hc with rfl | hc
        · exact ha
        · have := ih _ h c hc
          exact (List.filter_sublist.map _).subset this
      · rw [if_neg ha]; intro h; simp at h
  simp only [NetTab.step, NetTab.delConns] at ho ⊢
  cases hr : delConnRows args s with
  | mk s1 e =>
    rw [hr] at ho h6 hreg
    cases e with
    | some e => simp at ho
    | none =>
      simp only at ho h6 hreg ⊢
      obtain ⟨g1, -⟩ := delComps_spec (endpoints args) s1
      cases hd : delComps (endpoints args) s1 with
      | mk s2 e =>
        rw [hd] at ho g1
        cases e with
        | some e => simp at ho
        | none => exact ⟨g1.trans (h6 trivial), hreg trivial, rfl⟩

/-- C11, the part that fails: a bus may have the name of a class of components as its label. It
then shares the table for the results, and deleting the bus deletes the table of the components,
while the network still counts as checked: `solve` makes no new one. -/
theorem C11_bus_label_false (chk : NetTab → Option PyErr) (hchk : ∀ s, chk s = none) :
    ∃ ops : List TabOp, NetTab.Clean chk {} ops
      ∧ (NetTab.run chk {} ops).checked = true
      ∧ ∃ e ∈ (NetTab.run chk {} (ops ++ [.solve])).comps,
        e.2.ctype ∉ (NetTab.run chk {} (ops ++ [.solve])).results := by
  obtain rfl : chk = fun _ => none := funext hchk
  refine ⟨[.addConns [some exC1, some exC2], .addBusses [some ⟨0, "Pipe"⟩], .solve,
    .delBusses [⟨0, "Pipe"⟩]], ?_, by decide +kernel, ("pipe", exPipe), by decide +kernel, by decide +kernel⟩
  refine ⟨by decide +kernel, trivial, by decide +kernel, trivial, by decide +kernel, trivial,
    by decide +kernel, trivial, trivial⟩

-- non-vacuity: an equation is added and deleted, and deleted once more
example : (({} : NetTab).step (fun _ => none) (.addUde [some ⟨0, "a"⟩, some ⟨1, "b"⟩])).2 = none
    ∧ (NetTab.run (fun _ => none) {} [.addUde [some ⟨0, "a"⟩, some ⟨1, "b"⟩], .delUde [⟨0, "a"⟩]]).udes
      = [("b", ⟨1, "b"⟩)]
    ∧ ((NetTab.run (fun _ => none) {} [.addUde [some ⟨0, "a"⟩, some ⟨1, "b"⟩], .delUde [⟨0, "a"⟩]]).step
      (fun _ => none) (.delUde [⟨0, "a"⟩])).2 = some .keyError := by decide +kernel

-- non-vacuity: of two busses one is deleted, a third one is not part of the network
example : ((NetTab.run (fun _ => none) {} [.addBusses [some ⟨0, "a"⟩, some ⟨1, "b"⟩]]).step
    (fun _ => none) (.delBusses [⟨1, "b"⟩, ⟨2, "a"⟩])).1.busses = [("a", ⟨0, "a"⟩)] := by decide +kernel

-- non-vacuity: successful calls which add and delete connections
example : (({} : NetTab).step (fun _ => none) (.addConns [some exC1, some exC2])).2 = none
    ∧ ((NetTab.run (fun _ => none) {} [.addConns [some exC1, some exC2], .solve]).step (fun _ => none)
      (.delConns [exC2])).2 = none := by decide +kernel

end Tespy
