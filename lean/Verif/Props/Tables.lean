import Mathlib.Data.List.Dedup
import Verif.Lemmas.DictLemmas
import Verif.Model.Tables
/-
C11, C12: the tables of a network under arbitrary histories of calls.
-/
namespace Tespy

/-- No two connections, components, busses or user defined equations of the network share
a label, and every entry is filed under its own label. -/
structure NetTab.Labelled (s : NetTab) : Prop where
  conns : (s.conns.map ConnObj.label).Nodup
  comps : s.comps.keys.Nodup
  compKey : ∀ e ∈ s.comps, e.2.label = e.1
  busses : s.busses.keys.Nodup
  busKey : ∀ e ∈ s.busses, e.2.label = e.1
  udes : s.udes.keys.Nodup
  udeKey : ∀ e ∈ s.udes, e.2.label = e.1

theorem addComps_frame (cps : List CompObj) (s : NetTab) :
    (addComps cps s).1.conns = s.conns ∧ (addComps cps s).1.busses = s.busses ∧
    (addComps cps s).1.udes = s.udes ∧ (addComps cps s).1.results = s.results ∧
    (addComps cps s).1.checked = s.checked ∧ (addComps cps s).1.checkedConns = s.checkedConns := by
  induction cps generalizing s with
  | nil => simp [addComps]
  | cons cp cps ih =>
    unfold addComps
    split
    · split
      · exact ih s
      · simp
    · simpa using ih { s with comps := s.comps.set cp.label cp }

theorem addComps_comps (cps : List CompObj) (s : NetTab) (h1 : s.comps.keys.Nodup)
    (h2 : ∀ e ∈ s.comps, e.2.label = e.1) :
    (addComps cps s).1.comps.keys.Nodup ∧ (∀ e ∈ (addComps cps s).1.comps, e.2.label = e.1) ∧
    ((addComps cps s).2 = none →
      ∀ cp, (cp.label, cp) ∈ (addComps cps s).1.comps ↔ (cp.label, cp) ∈ s.comps ∨ cp ∈ cps) := by
  induction cps generalizing s with
  | nil => simp [addComps, h1]; intro a b; exact h2 (a, b)
  | cons cp cps ih =>
    unfold addComps
    cases hg : s.comps.get? cp.label with
    | some other =>
      simp only
      by_cases ho : other = cp
      · rw [if_pos ho]
        obtain ⟨a, b, c⟩ := ih s h1 h2
        refine ⟨a, b, fun h q => ?_⟩
        rw [c h q, List.mem_cons]
        subst ho
        have := Dict.mem_of_get? hg
        constructor
        · rintro (h | h) <;> simp [h]
        · rintro (h | rfl | h)
          · exact Or.inl h
          · exact Or.inl this
          · exact Or.inr h
      · rw [if_neg ho]; exact ⟨h1, h2, by simp⟩
    | none =>
      simp only
      have hk := (Dict.get?_eq_none_iff _ _).mp hg
      have h1' : (Dict.set s.comps cp.label cp).keys.Nodup := Dict.nodup_keys_set _ _ h1
      have h2' : ∀ e ∈ Dict.set s.comps cp.label cp, e.2.label = e.1 := by
        rw [Dict.set_of_not_mem _ hk]
        intro e he
        rcases List.mem_append.mp he with he | he
        · exact h2 e he
        · simp at he; subst he; rfl
      obtain ⟨a, b, c⟩ := ih { s with comps := s.comps.set cp.label cp } h1' h2'
      refine ⟨a, b, fun h q => ?_⟩
      rw [c h q, List.mem_cons]
      simp only [Dict.set_of_not_mem _ hk, List.mem_append, List.mem_singleton, Prod.mk.injEq]
      constructor
      · rintro ((h | ⟨_, rfl⟩) | h) <;> simp [*]
      · rintro (h | rfl | h) <;> simp [*]

theorem addConnRows_spec (args : List (Option ConnObj)) (s : NetTab) :
    (addConnRows args s).1.comps = s.comps ∧ (addConnRows args s).1.busses = s.busses ∧
    (addConnRows args s).1.udes = s.udes ∧ (addConnRows args s).1.results = s.results ∧
    (addConnRows args s).1.checkedConns = s.checkedConns ∧
    ((s.conns.map ConnObj.label).Nodup → ((addConnRows args s).1.conns.map ConnObj.label).Nodup) ∧
    ((addConnRows args s).1.checked = true → (addConnRows args s).1 = s) ∧
    ((addConnRows args s).2 = none → (addConnRows args s).1.conns = s.conns ++ args.filterMap id) := by
  induction args generalizing s with
  | nil => simp [addConnRows]
  | cons a args ih =>
    cases a with
    | none => simp [addConnRows]
    | some c =>
      unfold addConnRows
      by_cases hc : c.label ∈ s.conns.map ConnObj.label
      · rw [if_pos hc]; simp
      · rw [if_neg hc]
        obtain ⟨h1, h2, h3, h4, h5, h6, h7, h8⟩ :=
          ih { s with conns := s.conns ++ [c], checked := false }
        refine ⟨h1, h2, h3, h4, h5, fun hn => h6 ?_, fun ht => ?_, fun ho => ?_⟩
        · simp only [List.map_append, List.map_cons, List.map_nil]
          exact List.Nodup.append hn (List.nodup_singleton _) (by simpa using hc)
        · have := h7 ht
          rw [this] at ht; simp at ht
        · rw [h8 ho]; simp

theorem delConnRows_spec (args : List ConnObj) (s : NetTab) :
    (delConnRows args s).1.comps = s.comps ∧ (delConnRows args s).1.busses = s.busses ∧
    (delConnRows args s).1.udes = s.udes ∧ (delConnRows args s).1.results = s.results ∧
    (delConnRows args s).1.conns.Sublist s.conns ∧
    ((delConnRows args s).2 = none →
      (delConnRows args s).1.conns = s.conns.filter (fun d => d.label ∉ args.map ConnObj.label)) := by
  induction args generalizing s with
  | nil => simp [delConnRows]
  | cons c args ih =>
    unfold delConnRows
    by_cases hc : c.label ∈ s.conns.map ConnObj.label
    · rw [if_pos hc]
      obtain ⟨h1, h2, h3, h4, h5, h6⟩ :=
        ih { s with conns := s.conns.filter (fun d => d.label ≠ c.label) }
      refine ⟨h1, h2, h3, h4, h5.trans List.filter_sublist, fun ho => ?_⟩
      rw [h6 ho, List.filter_filter]
      apply List.filter_congr
      intro d _
      rw [Bool.eq_iff_iff]
      simp only [List.map_cons, List.mem_cons, not_or, Bool.and_eq_true, decide_eq_true_eq]
      exact and_comm
    · rw [if_neg hc]; simp

theorem delComps_spec (cps : List CompObj) (s : NetTab) :
    (delComps cps s).1.conns = s.conns ∧ (delComps cps s).1.busses = s.busses ∧
    (delComps cps s).1.udes = s.udes ∧ (delComps cps s).1.results = s.results ∧
    (delComps cps s).1.comps.Sublist s.comps ∧
    (s.comps.keys.Nodup → (∀ e ∈ s.comps, e.2.label = e.1) → (delComps cps s).2 = none →
      ∀ e, e ∈ (delComps cps s).1.comps ↔ e ∈ s.comps ∧
        ¬ ∃ cp ∈ cps, cp.label = e.1 ∧ cp ∉ s.conns.map ConnObj.source ∧
          cp ∉ s.conns.map ConnObj.target) := by
  induction cps generalizing s with
  | nil => simp [delComps]
  | cons cp cps ih =>
    unfold delComps
    by_cases h : cp ∉ s.conns.map ConnObj.source ∧ cp ∉ s.conns.map ConnObj.target
    · rw [if_pos h]
      by_cases hk : cp.label ∈ s.comps.keys
      · rw [if_pos hk]
        dsimp only
        by_cases hr : cp.ctype ∈ s.results
        · rw [if_pos hr]
          obtain ⟨h1, h2, h3, h4, h5, h6⟩ := ih { s with comps := s.comps.erase cp.label }
          refine ⟨h1, h2, h3, h4, h5.trans (Dict.erase_sublist _ _), fun hn hl ho e => ?_⟩
          rw [h6 (Dict.nodup_keys_erase _ hn)
            (fun e he => hl e ((Dict.erase_sublist _ _).subset he)) ho e]
          simp only
          rw [Dict.mem_erase hn]
          constructor
          · rintro ⟨⟨he, hne⟩, hx⟩
            refine ⟨he, ?_⟩
            rintro ⟨cp', hcp', hl', hh⟩
            rcases List.mem_cons.mp hcp' with rfl | hcp'
            · exact hne hl'.symm
            · exact hx ⟨cp', hcp', hl', hh⟩
          · rintro ⟨he, hx⟩
            refine ⟨⟨he, fun hc => hx ⟨cp, by simp, hc.symm, h⟩⟩, ?_⟩
            rintro ⟨cp', hcp', hh⟩
            exact hx ⟨cp', List.mem_cons_of_mem _ hcp', hh⟩
        · rw [if_neg hr]
          exact ⟨rfl, rfl, rfl, rfl, Dict.erase_sublist _ _, by simp⟩
      · rw [if_neg hk]; simp
    · rw [if_neg h]
      obtain ⟨h1, h2, h3, h4, h5, h6⟩ := ih s
      refine ⟨h1, h2, h3, h4, h5, fun hn hl ho e => ?_⟩
      rw [h6 hn hl ho e]
      refine and_congr_right (fun _ => not_congr ?_)
      constructor
      · rintro ⟨cp', hcp', hh⟩; exact ⟨cp', List.mem_cons_of_mem _ hcp', hh⟩
      · rintro ⟨cp', hcp', hh⟩
        rcases List.mem_cons.mp hcp' with rfl | hcp'
        · exact absurd hh.2 h
        · exact ⟨cp', hcp', hh⟩

theorem addUde_labelled (args : List (Option LabObj)) (s : NetTab) (h : s.Labelled) :
    (addUdeLoop args s).1.Labelled := by
  induction args generalizing s with
  | nil => exact h
  | cons a args ih =>
    cases a with
    | none => exact h
    | some u =>
      unfold addUdeLoop
      split
      · exact h
      · rename_i hu
        apply ih
        refine { h with udes := Dict.nodup_keys_set _ _ h.udes, udeKey := ?_ }
        simp only [Dict.set_of_not_mem _ hu]
        intro e he
        rcases List.mem_append.mp he with he | he
        · exact h.udeKey e he
        · simp at he; subst he; rfl

theorem delUde_labelled (args : List LabObj) (s : NetTab) (h : s.Labelled) :
    (delUdeLoop args s).1.Labelled := by
  induction args generalizing s with
  | nil => exact h
  | cons u args ih =>
    unfold delUdeLoop
    split
    · apply ih
      exact { h with udes := Dict.nodup_keys_erase _ h.udes,
                     udeKey := fun e he => h.udeKey e ((Dict.erase_sublist _ _).subset he) }
    · exact h

theorem addBus_labelled (args : List (Option LabObj)) (s : NetTab) (h : s.Labelled) :
    (addBusLoop args s).1.Labelled := by
  induction args generalizing s with
  | nil => exact h
  | cons a args ih =>
    cases a with
    | none => exact h
    | some u =>
      unfold addBusLoop
      split
      · exact h
      · split
        · exact h
        · rename_i _ hu
          apply ih
          refine { h with busses := Dict.nodup_keys_set _ _ h.busses, busKey := ?_ }
          simp only [Dict.set_of_not_mem _ hu]
          intro e he
          rcases List.mem_append.mp he with he | he
          · exact h.busKey e he
          · simp at he; subst he; rfl

theorem delBus_labelled (args : List LabObj) (s : NetTab) (h : s.Labelled) :
    (delBusLoop args s).1.Labelled := by
  induction args generalizing s with
  | nil => exact h
  | cons u args ih =>
    unfold delBusLoop
    have h' : NetTab.Labelled { s with busses := s.busses.erase u.label } :=
      { h with busses := Dict.nodup_keys_erase _ h.busses,
               busKey := fun e he => h.busKey e ((Dict.erase_sublist _ _).subset he) }
    split
    · dsimp only
      split
      · exact ih _ { h' with }
      · exact h'
    · exact ih s h

theorem step_labelled (chk : NetTab → Option PyErr) (s : NetTab) (h : s.Labelled) (op : TabOp) :
    (s.step chk op).1.Labelled := by
  cases op with
  | addConns args =>
    obtain ⟨h1, h2, h3, h4, h5, h6, h7, h8⟩ := addConnRows_spec args s
    have hA : (addConnRows args s).1.Labelled :=
      ⟨h6 h.conns, by rw [h1]; exact h.comps, by rw [h1]; exact h.compKey, by rw [h2]; exact h.busses,
        by rw [h2]; exact h.busKey, by rw [h3]; exact h.udes, by rw [h3]; exact h.udeKey⟩
    simp only [NetTab.step, NetTab.addConns]
    split
    · rename_i s1 e he; rw [he] at hA; exact hA
    · rename_i s1 he
      rw [he] at hA
      have hf := addComps_frame (endpoints (args.filterMap id)) s1
      have hc := addComps_comps (endpoints (args.filterMap id)) s1 hA.comps hA.compKey
      exact ⟨by rw [hf.1]; exact hA.conns, hc.1, hc.2.1, by rw [hf.2.1]; exact hA.busses,
        by rw [hf.2.1]; exact hA.busKey, by rw [hf.2.2.1]; exact hA.udes, by rw [hf.2.2.1]; exact hA.udeKey⟩
  | delConns args =>
    obtain ⟨h1, h2, h3, h4, h5, h6⟩ := delConnRows_spec args s
    have hA : (delConnRows args s).1.Labelled :=
      ⟨h.conns.sublist (h5.map _), by rw [h1]; exact h.comps, by rw [h1]; exact h.compKey,
        by rw [h2]; exact h.busses, by rw [h2]; exact h.busKey, by rw [h3]; exact h.udes,
        by rw [h3]; exact h.udeKey⟩
    simp only [NetTab.step, NetTab.delConns]
    split
    · rename_i s1 e he; rw [he] at hA; exact hA
    · rename_i s1 he
      rw [he] at hA
      obtain ⟨g1, g2, g3, g4, g5, g6⟩ := delComps_spec (endpoints args) s1
      have hB : (delComps (endpoints args) s1).1.Labelled :=
        ⟨by rw [g1]; exact hA.conns, hA.comps.sublist (g5.map _), fun e he => hA.compKey e (g5.subset he),
          by rw [g2]; exact hA.busses, by rw [g2]; exact hA.busKey, by rw [g3]; exact hA.udes,
          by rw [g3]; exact hA.udeKey⟩
      split
      · rename_i s2 e he2; rw [he2] at hB; exact hB
      · rename_i s2 he2; rw [he2] at hB; exact { hB with }
  | addUde args => exact addUde_labelled args s h
  | delUde args => exact delUde_labelled args s h
  | addBusses args => exact addBus_labelled args s h
  | delBusses args => exact delBus_labelled args s h
  | solve =>
    simp only [NetTab.step, NetTab.solveStart, NetTab.checkNetwork, withResultTables]
    split
    · exact h
    · split
      · exact h
      · split <;> exact { h with }

/-- C11: after every history of calls, including failing ones, labels are unique and
entries are filed under their labels. -/
theorem C11_labels_unique (chk : NetTab → Option PyErr) (ops : List TabOp) :
    (NetTab.run chk {} ops).Labelled := by
  have h0 : NetTab.Labelled {} := ⟨by simp, by simp [Dict.keys], by simp, by simp [Dict.keys], by simp, by simp [Dict.keys], by simp⟩
  generalize ({} : NetTab) = s at h0
  induction ops generalizing s with
  | nil => exact h0
  | cons op ops ih => exact ih _ (step_labelled chk s h0 op)

/-- Connections are deleted by passing the very objects that are in the network. -/
def NetTab.deletesListed (s : NetTab) : TabOp → Prop
  | .delConns args => ∀ c ∈ args, c ∈ s.conns
  | _ => True

/-- A history in which every call succeeds and connections are deleted by passing the
very objects that are in the network. -/
def NetTab.Clean (chk : NetTab → Option PyErr) (s : NetTab) : List TabOp → Prop
  | [] => True
  | op :: ops =>
    (s.step chk op).2 = none ∧
    s.deletesListed op ∧
    NetTab.Clean chk (s.step chk op).1 ops

/-- The listed components are exactly the ends of the listed connections. -/
def NetTab.CompsExact (s : NetTab) : Prop :=
  ∀ cp, (cp.label, cp) ∈ s.comps ↔ ∃ c ∈ s.conns, cp = c.source ∨ cp = c.target

theorem mem_endpoints (cs : List ConnObj) (cp : CompObj) :
    cp ∈ endpoints cs ↔ ∃ c ∈ cs, cp = c.source ∨ cp = c.target := by
  simp [endpoints]

theorem udes_bus_frame (args : List (Option LabObj)) (args' : List LabObj) (s : NetTab) :
    ((addUdeLoop args s).1.conns = s.conns ∧ (addUdeLoop args s).1.comps = s.comps) ∧
    ((delUdeLoop args' s).1.conns = s.conns ∧ (delUdeLoop args' s).1.comps = s.comps) ∧
    ((addBusLoop args s).1.conns = s.conns ∧ (addBusLoop args s).1.comps = s.comps) ∧
    ((delBusLoop args' s).1.conns = s.conns ∧ (delBusLoop args' s).1.comps = s.comps) := by
  refine ⟨?_, ?_, ?_, ?_⟩
  · induction args generalizing s with
    | nil => simp [addUdeLoop]
    | cons a args ih =>
      cases a with
      | none => simp [addUdeLoop]
      | some u => unfold addUdeLoop; split; · simp
                  · simpa using ih { s with udes := s.udes.set u.label u }
  · induction args' generalizing s with
    | nil => simp [delUdeLoop]
    | cons u args ih =>
      unfold delUdeLoop; split
      · simpa using ih { s with udes := s.udes.erase u.label }
      · simp
  · induction args generalizing s with
    | nil => simp [addBusLoop]
    | cons a args ih =>
      cases a with
      | none => simp [addBusLoop]
      | some u =>
        unfold addBusLoop; split
        · simp
        · split
          · simp
          · simpa using ih { s with
              busses := s.busses.set u.label u
              results := if u.label ∈ s.results then s.results else s.results ++ [u.label] }
  · induction args' generalizing s with
    | nil => simp [delBusLoop]
    | cons u args ih =>
      unfold delBusLoop; split
      · dsimp only
        split
        · simpa using ih { s with busses := s.busses.erase u.label,
                                  results := s.results.filter (· ≠ u.label) }
        · simp
      · exact ih s

theorem step_exact (chk : NetTab → Option PyErr) (s : NetTab) (hl : s.Labelled) (he : s.CompsExact)
    (op : TabOp) (ho : (s.step chk op).2 = none)
    (hd : s.deletesListed op) :
    (s.step chk op).1.CompsExact := by
  cases op with
  | addUde args => obtain ⟨⟨a, b⟩, _⟩ := udes_bus_frame args [] s; intro cp; simp only [NetTab.step, a, b]; exact he cp
  | delUde args => obtain ⟨_, ⟨a, b⟩, _⟩ := udes_bus_frame [] args s; intro cp; simp only [NetTab.step, a, b]; exact he cp
  | addBusses args => obtain ⟨_, _, ⟨a, b⟩, _⟩ := udes_bus_frame args [] s; intro cp; simp only [NetTab.step, a, b]; exact he cp
  | delBusses args => obtain ⟨_, _, _, a, b⟩ := udes_bus_frame [] args s; intro cp; simp only [NetTab.step, a, b]; exact he cp
  | solve =>
    intro cp
    have : (s.step chk .solve).1.conns = s.conns ∧ (s.step chk .solve).1.comps = s.comps := by
      simp only [NetTab.step, NetTab.solveStart, NetTab.checkNetwork, withResultTables]
      split
      · simp
      · split
        · simp
        · split <;> simp
    rw [this.1, this.2]; exact he cp
  | addConns args =>
    obtain ⟨h1, h2, h3, h4, h5, h6, h7, h8⟩ := addConnRows_spec args s
    simp only [NetTab.step, NetTab.addConns] at ho ⊢
    split at ho
    · simp at ho
    rename_i s1 hs1
    rw [hs1] at h1 h6 h8
    simp only at h1 h6 h8
    have hf := addComps_frame (endpoints (args.filterMap id)) s1
    have hc := addComps_comps (endpoints (args.filterMap id)) s1 (by rw [h1]; exact hl.comps)
      (by rw [h1]; exact hl.compKey)
    intro cp
    rw [hc.2.2 ho cp, hf.1, h8 trivial, h1, he cp, mem_endpoints]
    simp only [List.mem_append]
    constructor
    · rintro (⟨c, hc, h⟩ | ⟨c, hc, h⟩)
      · exact ⟨c, Or.inl hc, h⟩
      · exact ⟨c, Or.inr hc, h⟩
    · rintro ⟨c, hc | hc, h⟩
      · exact Or.inl ⟨c, hc, h⟩
      · exact Or.inr ⟨c, hc, h⟩
  | delConns args =>
    simp only [NetTab.deletesListed] at hd
    obtain ⟨h1, h2, h3, h4, h5, h6⟩ := delConnRows_spec args s
    simp only [NetTab.step, NetTab.delConns] at ho ⊢
    split at ho
    · simp at ho
    rename_i s1 hs1
    rw [hs1] at h1 h5 h6
    simp only at h1 h5 h6
    split at ho
    · simp at ho
    rename_i s2 hs2
    obtain ⟨g1, g2, g3, g4, g5, g6⟩ := delComps_spec (endpoints args) s1
    rw [hs2] at g1 g6
    simp only at g1 g6
    intro cp
    simp only
    rw [g6 (by rw [h1]; exact hl.comps) (by rw [h1]; exact hl.compKey) trivial, g1, h1, he cp]
    have hc1 := h6 trivial
    have memc : ∀ c, c ∈ s1.conns ↔ c ∈ s.conns ∧ c ∉ args := by
      intro c
      rw [hc1, List.mem_filter]
      refine and_congr_right (fun hc => ?_)
      simp only [decide_eq_true_eq]
      constructor
      · intro h h'; exact h (List.mem_map_of_mem h')
      · intro h h'
        obtain ⟨d, hd', hdl⟩ := List.mem_map.mp h'
        have hds := hd d hd'
        have : d = c := List.inj_on_of_nodup_map hl.conns hds hc hdl
        exact h (this ▸ hd')
    constructor
    · rintro ⟨⟨c, hc, hcp⟩, hno⟩
      by_contra hcon
      apply hno
      have hca : c ∈ args := by
        by_contra hna
        exact hcon ⟨c, (memc c).mpr ⟨hc, hna⟩, hcp⟩
      refine ⟨cp, (mem_endpoints _ _).mpr ⟨c, hca, hcp⟩, rfl, ?_, ?_⟩
      · intro h; obtain ⟨d, hd', rfl⟩ := List.mem_map.mp h; exact hcon ⟨d, hd', Or.inl rfl⟩
      · intro h; obtain ⟨d, hd', rfl⟩ := List.mem_map.mp h; exact hcon ⟨d, hd', Or.inr rfl⟩
    · rintro ⟨c, hc, hcp⟩
      have hcs := ((memc c).mp hc).1
      refine ⟨⟨c, hcs, hcp⟩, ?_⟩
      rintro ⟨cp', hcp', hlab, hn1, hn2⟩
      obtain ⟨d, hd', hdp⟩ := (mem_endpoints _ _).mp hcp'
      have m1 : (cp'.label, cp') ∈ s.comps := (he cp').mpr ⟨d, hd d hd', hdp⟩
      have m2 : (cp.label, cp) ∈ s.comps := (he cp).mpr ⟨c, hcs, hcp⟩
      have e1 := Dict.get?_of_mem hl.comps m1
      have e2 := Dict.get?_of_mem hl.comps m2
      simp only at hlab
      rw [hlab, e2] at e1
      have : cp = cp' := by injection e1
      subst this
      rcases hcp with rfl | rfl
      · exact hn1 (List.mem_map_of_mem hc)
      · exact hn2 (List.mem_map_of_mem hc)

/-- C11: after every history of successful calls the components listed by the network
are exactly the sources and targets of its connections. -/
theorem C11_components_exact_partial (chk : NetTab → Option PyErr) (ops : List TabOp)
    (h : NetTab.Clean chk {} ops) : (NetTab.run chk {} ops).CompsExact := by
  have h0 : NetTab.Labelled {} := C11_labels_unique chk []
  have h1 : NetTab.CompsExact {} := by intro cp; simp
  generalize ({} : NetTab) = s at h0 h1 h
  induction ops generalizing s with
  | nil => exact h1
  | cons op ops ih =>
    obtain ⟨a, b, c⟩ := h
    exact ih _ (step_labelled chk s h0 op) (step_exact chk s h0 h1 op a b) c

/-- sample objects -/
def exSrc : CompObj := ⟨0, "source", "Source", [], ["out1"]⟩
def exSnk : CompObj := ⟨1, "sink", "Sink", ["in1"], []⟩
def exPipe : CompObj := ⟨2, "pipe", "Pipe", ["in1"], ["out1"]⟩
def exC1 : ConnObj := ⟨0, "1", exSrc, "out1", exPipe, "in1"⟩
def exC2 : ConnObj := ⟨1, "2", exPipe, "out1", exSnk, "in1"⟩
def exC1' : ConnObj := ⟨2, "1", exSrc, "out1", exSnk, "in1"⟩

/-- C11, the part that fails: an `add_conns` call which is rejected because of its second
argument leaves the first connection in the network without its components. -/
theorem C11_failed_add_leaves_orphan_connection (chk : NetTab → Option PyErr) :
    (({} : NetTab).addConns [some exC1, some exC1']).2 = some .valueError ∧
    (({} : NetTab).addConns [some exC1, some exC1']).1.conns = [exC1] ∧
    (({} : NetTab).addConns [some exC1, some exC1']).1.comps = [] := by
  decide +kernel

/-- C11, the part that fails: deleting a connection before the first check raises
`KeyError` (no results table) after the connection and a component are already
removed; the second component stays in the network without connection. -/
theorem C11_failed_delete_leaves_orphan_component :
    ∃ s : NetTab, s = (({} : NetTab).addConns [some exC1]).1 ∧
      (s.delConns [exC1]).2 = some .keyError ∧
      (s.delConns [exC1]).1.conns = [] ∧ (s.delConns [exC1]).1.comps ≠ [] :=
  ⟨_, rfl, by decide +kernel, by decide +kernel, by decide +kernel⟩

/-- The call is not a `del_conns` call which raises. -/
def NetTab.notFailedDelete (chk : NetTab → Option PyErr) (s : NetTab) : TabOp → Prop
  | .delConns args => (s.step chk (.delConns args)).2 = none
  | _ => True

/-- `del_conns` calls of the history never raise. -/
def NetTab.NoFailedDelete (chk : NetTab → Option PyErr) (s : NetTab) : List TabOp → Prop
  | [] => True
  | op :: ops =>
    s.notFailedDelete chk op ∧
    NetTab.NoFailedDelete chk (s.step chk op).1 ops

/-- The check the network relies on was made for the present connections. -/
def NetTab.UpToDate (s : NetTab) : Prop := s.checked = true → s.checkedConns = some s.conns

theorem labLoop_frame (args : List (Option LabObj)) (args' : List LabObj) (s : NetTab) :
    ((addUdeLoop args s).1.checked = s.checked ∧ (addUdeLoop args s).1.checkedConns = s.checkedConns) ∧
    ((delUdeLoop args' s).1.checked = s.checked ∧ (delUdeLoop args' s).1.checkedConns = s.checkedConns) ∧
    ((addBusLoop args s).1.checked = s.checked ∧ (addBusLoop args s).1.checkedConns = s.checkedConns) ∧
    ((delBusLoop args' s).1.checked = s.checked ∧ (delBusLoop args' s).1.checkedConns = s.checkedConns) := by
  refine ⟨?_, ?_, ?_, ?_⟩
  · induction args generalizing s with
    | nil => simp [addUdeLoop]
    | cons a args ih =>
      cases a with
      | none => simp [addUdeLoop]
      | some u => unfold addUdeLoop; split; · simp
                  · simpa using ih { s with udes := s.udes.set u.label u }
  · induction args' generalizing s with
    | nil => simp [delUdeLoop]
    | cons u args ih =>
      unfold delUdeLoop; split
      · simpa using ih { s with udes := s.udes.erase u.label }
      · simp
  · induction args generalizing s with
    | nil => simp [addBusLoop]
    | cons a args ih =>
      cases a with
      | none => simp [addBusLoop]
      | some u =>
        unfold addBusLoop; split
        · simp
        · split
          · simp
          · simpa using ih { s with
              busses := s.busses.set u.label u
              results := if u.label ∈ s.results then s.results else s.results ++ [u.label] }
  · induction args' generalizing s with
    | nil => simp [delBusLoop]
    | cons u args ih =>
      unfold delBusLoop; split
      · dsimp only
        split
        · simpa using ih { s with busses := s.busses.erase u.label,
                                  results := s.results.filter (· ≠ u.label) }
        · simp
      · exact ih s

theorem step_upToDate (chk : NetTab → Option PyErr) (s : NetTab) (h : s.UpToDate) (op : TabOp)
    (hd : s.notFailedDelete chk op) :
    (s.step chk op).1.UpToDate := by
  cases op with
  | addUde args =>
    obtain ⟨⟨a, _⟩, _⟩ := udes_bus_frame args [] s; obtain ⟨⟨b, c⟩, _⟩ := labLoop_frame args [] s
    unfold NetTab.UpToDate; simp only [NetTab.step, a, b, c]; exact h
  | delUde args =>
    obtain ⟨_, ⟨a, _⟩, _⟩ := udes_bus_frame [] args s; obtain ⟨_, ⟨b, c⟩, _⟩ := labLoop_frame [] args s
    unfold NetTab.UpToDate; simp only [NetTab.step, a, b, c]; exact h
  | addBusses args =>
    obtain ⟨_, _, ⟨a, _⟩, _⟩ := udes_bus_frame args [] s; obtain ⟨_, _, ⟨b, c⟩, _⟩ := labLoop_frame args [] s
    unfold NetTab.UpToDate; simp only [NetTab.step, a, b, c]; exact h
  | delBusses args =>
    obtain ⟨_, _, _, a, _⟩ := udes_bus_frame [] args s; obtain ⟨_, _, _, b, c⟩ := labLoop_frame [] args s
    unfold NetTab.UpToDate; simp only [NetTab.step, a, b, c]; exact h
  | solve =>
    simp only [NetTab.step, NetTab.solveStart, NetTab.checkNetwork, withResultTables]
    split
    · exact h
    · rename_i hc
      split
      · exact h
      · split
        · intro ht; simp at ht; exact absurd ht hc
        · intro _; rfl
  | addConns args =>
    obtain ⟨h1, h2, h3, h4, h5, h6, h7, h8⟩ := addConnRows_spec args s
    have hA : (addConnRows args s).1.UpToDate := by
      intro ht
      have := h7 ht
      rw [this] at ht ⊢
      exact h ht
    simp only [NetTab.step, NetTab.addConns]
    split
    · rename_i s1 e he; rw [he] at hA; exact hA
    · rename_i s1 he
      rw [he] at hA
      have hf := addComps_frame (endpoints (args.filterMap id)) s1
      unfold NetTab.UpToDate
      rw [hf.1, hf.2.2.2.2.1, hf.2.2.2.2.2]; exact hA
  | delConns args =>
    simp only [NetTab.notFailedDelete, NetTab.step, NetTab.delConns] at hd ⊢
    split at hd
    · simp at hd
    split at hd
    · simp at hd
    · intro ht; simp at ht

/-- C12: in every history in which no `del_conns` call raised, `solve` works on a
topology check of exactly the present connections. -/
theorem C12_recheck_partial (chk : NetTab → Option PyErr) (ops : List TabOp)
    (h : NetTab.NoFailedDelete chk {} ops)
    (hs : ((NetTab.run chk {} ops).solveStart chk).2 = none) :
    ((NetTab.run chk {} ops).solveStart chk).1.checkedConns
      = some (NetTab.run chk {} ops).conns := by
  have h0 : NetTab.UpToDate {} := by intro h; simp at h
  have key : ∀ (s : NetTab), s.UpToDate → NetTab.NoFailedDelete chk s ops →
      (NetTab.run chk s ops).UpToDate := by
    clear h hs
    induction ops with
    | nil => intro s hs _; exact hs
    | cons op ops ih =>
      intro s hs hn
      exact ih _ (step_upToDate chk s hs op hn.1) hn.2
  have hu := key {} h0 h
  generalize NetTab.run chk {} ops = s at hu hs
  unfold NetTab.solveStart NetTab.checkNetwork at hs ⊢
  by_cases hc : s.checked
  · rw [if_pos hc]; exact hu hc
  · rw [if_neg hc] at hs ⊢
    split at hs
    · simp at hs
    · rename_i hne
      rw [if_neg hne]
      dsimp only at hs ⊢
      cases hk : chk s with
      | some e => simp [hk] at hs
      | none => rfl

/-- C12, the part that fails: a `del_conns` call which raises for its second argument
(not part of the network) has already removed the first connection, but the network
remains marked as checked: the next solve uses the branches of the old topology. -/
theorem C12_stale_check_after_failed_delete :
    ∃ ops : List TabOp,
      ((NetTab.run (fun _ => none) {} ops).solveStart (fun _ => none)).2 = none ∧
      (NetTab.run (fun _ => none) {} ops).conns = [exC2] ∧
      ((NetTab.run (fun _ => none) {} ops).solveStart (fun _ => none)).1.checkedConns
        = some [exC1, exC2] :=
  ⟨[.addConns [some exC1, some exC2], .solve, .delConns [exC1, ⟨7, "7", exSrc, "out1", exSnk, "in1"⟩]],
    by decide +kernel, by decide +kernel, by decide +kernel⟩

/-- C11 (result tables): a calculation of a network which has to be checked prepares a result table for the type of every
component, keeps the tables which exist and creates no table twice; nothing else is created. -/
theorem C11_result_tables (chk : NetTab → Option PyErr) (s : NetTab) (hc : s.conns ≠ []) (hn : s.checked = false) :
    (∀ t, t ∈ (s.step chk .solve).1.results ↔ t ∈ s.results ∨ ∃ kc ∈ s.comps, kc.2.ctype = t) ∧
    (s.results.Nodup → (s.step chk .solve).1.results.Nodup) := by
  have key : ∀ (l r : List String), (∀ t, t ∈ List.foldl (fun r t => if t ∈ r then r else r ++ [t]) r l ↔ t ∈ r ∨ t ∈ l) ∧
      (r.Nodup → (List.foldl (fun r t => if t ∈ r then r else r ++ [t]) r l).Nodup) := by
    intro l
    induction l with
    | nil => intro r; exact ⟨fun t => by simp, fun h => h⟩
    | cons a l ih =>
      intro r
      obtain ⟨i1, i2⟩ := ih (if a ∈ r then r else r ++ [a])
      refine ⟨fun t => ?_, fun h => ?_⟩
      · rw [List.foldl_cons, i1 t]
        by_cases ha : a ∈ r
        · rw [if_pos ha, List.mem_cons]
          constructor
          · rintro (h | h) <;> simp [h]
          · rintro (h | rfl | h)
            · exact Or.inl h
            · exact Or.inl ha
            · exact Or.inr h
        · rw [if_neg ha, List.mem_append, List.mem_singleton, List.mem_cons]
          tauto
      · rw [List.foldl_cons]
        apply i2
        by_cases ha : a ∈ r
        · rw [if_pos ha]; exact h
        · rw [if_neg ha]
          exact List.nodup_append.mpr ⟨h, by simp, fun x hx y hy hxy => ha (by
            rw [List.mem_singleton] at hy
            rw [← hy, ← hxy]; exact hx)⟩
  have hr : (s.step chk .solve).1.results =
      List.foldl (fun r t => if t ∈ r then r else r ++ [t]) s.results (s.comps.map (fun kc => kc.2.ctype)) := by
    simp only [NetTab.step, NetTab.solveStart, NetTab.checkNetwork, withResultTables, hn, Bool.false_eq_true, if_false, if_neg hc]
    cases chk s <;> rfl
  rw [hr]
  obtain ⟨k1, k2⟩ := key (s.comps.map (fun kc => kc.2.ctype)) s.results
  exact ⟨fun t => by rw [k1 t, List.mem_map], k2⟩

-- non-vacuity: two connections, not checked yet
example : (NetTab.run (fun _ => none) {} [.addConns [some exC1, some exC2]]).conns ≠ [] ∧
    (NetTab.run (fun _ => none) {} [.addConns [some exC1, some exC2]]).checked = false ∧
    (NetTab.run (fun _ => none) {} [.addConns [some exC1, some exC2]]).comps.length = 3 := by
  decide +kernel

-- non-vacuity: a clean history with additions, a check and a deletion
example : NetTab.Clean (fun _ => none) {} [.addConns [some exC1, some exC2], .solve,
    .addBusses [some ⟨0, "power"⟩], .delConns [exC2], .solve] := by
  refine ⟨by decide +kernel, trivial, by decide +kernel, trivial, by decide +kernel, trivial,
    by decide +kernel, ?_, by decide +kernel, trivial, trivial⟩
  intro c hc
  simp at hc; subst hc; decide +kernel
example : NetTab.NoFailedDelete (fun _ => none) {} [.addConns [some exC1, some exC2], .solve,
    .delConns [exC2]] := by
  refine ⟨trivial, trivial, ?_, trivial⟩
  unfold NetTab.notFailedDelete
  decide +kernel

end Tespy
