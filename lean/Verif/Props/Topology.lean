import Mathlib.Data.List.Perm.Basic
import Mathlib.Data.List.Perm.Subperm
import Verif.Model.Topology
import Verif.Props.Tables
/-
C13: the topology check.
-/
namespace Tespy

theorem checkConns_ok {cs : List ConnObj} (h : checkConns cs = .ok ()) :
    (cs.map (fun c => (c.source, c.sourceId))).Nodup ∧
    (cs.map (fun c => (c.target, c.targetId))).Nodup := by
  unfold checkConns at h
  split at h
  · simp at h
  · split at h
    · simp at h
    · rename_i h1 h2; exact ⟨not_not.mp h1, not_not.mp h2⟩

theorem checkComponents_ok {cs : List ConnObj} {comps : List CompObj}
    (h : checkComponents cs comps = .ok ()) :
    ∀ cp ∈ comps, (cs.filter (fun c => c.source = cp)).length = cp.outlets.length ∧
      (cs.filter (fun c => c.target = cp)).length = cp.inlets.length := by
  induction comps with
  | nil => simp
  | cons a comps ih =>
    unfold checkComponents at h
    split at h
    · simp at h
    · split at h
      · simp at h
      · rename_i h1 h2
        intro cp hcp
        rcases List.mem_cons.mp hcp with rfl | hcp
        · exact ⟨not_not.mp h1, not_not.mp h2⟩
        · exact ih h cp hcp

/-- Every connection ends at connectors its components declare (what the constructor of a
connection checks, connections/connection.py 301-310). -/
def Declared (cs : List ConnObj) : Prop :=
  ∀ c ∈ cs, c.sourceId ∈ c.source.outlets ∧ c.targetId ∈ c.target.inlets

theorem count_one_of_perm {α β} [DecidableEq α] [DecidableEq β] {l : List α} {f : α → β} {m : List β}
    (hp : (l.map f).Perm m) (hm : m.Nodup) {b : β} (hb : b ∈ m) : ∃! a, a ∈ l ∧ f a = b := by
  have hn : (l.map f).Nodup := hp.nodup_iff.mpr hm
  obtain ⟨a, ha, hfa⟩ := List.mem_map.mp (hp.mem_iff.mpr hb)
  refine ⟨a, ⟨ha, hfa⟩, ?_⟩
  rintro a' ⟨ha', hfa'⟩
  exact List.inj_on_of_nodup_map hn ha' ha (hfa'.trans hfa.symm)

theorem perm_of_nodup_subset_length {β} {l m : List β} (hl : l.Nodup)
    (hs : l ⊆ m) (hlen : m.length ≤ l.length) : l.Perm m :=
  (hl.subperm hs).perm_of_length_le hlen

theorem target_ids_perm {cs : List ConnObj} {cp : CompObj}
    (hn : (cs.map (fun c => (c.target, c.targetId))).Nodup)
    (hd : ∀ c ∈ cs, c.target = cp → c.targetId ∈ cp.inlets)
    (hlen : (cs.filter (fun c => c.target = cp)).length = cp.inlets.length) :
    ((cs.filter (fun c => c.target = cp)).map ConnObj.targetId).Perm cp.inlets := by
  apply perm_of_nodup_subset_length
  · refine List.Nodup.map_on ?_ (List.Nodup.filter _ (List.Nodup.of_map _ hn))
    intro a ha b hb hab
    simp only [List.mem_filter, decide_eq_true_eq] at ha hb
    exact List.inj_on_of_nodup_map hn ha.1 hb.1 (by simp [ha.2, hb.2, hab])
  · intro x hx
    obtain ⟨c, hc, rfl⟩ := List.mem_map.mp hx
    simp only [List.mem_filter, decide_eq_true_eq] at hc
    exact hd c hc.1 hc.2
  · rw [List.length_map]; exact hlen.ge

theorem source_ids_perm {cs : List ConnObj} {cp : CompObj}
    (hn : (cs.map (fun c => (c.source, c.sourceId))).Nodup)
    (hd : ∀ c ∈ cs, c.source = cp → c.sourceId ∈ cp.outlets)
    (hlen : (cs.filter (fun c => c.source = cp)).length = cp.outlets.length) :
    ((cs.filter (fun c => c.source = cp)).map ConnObj.sourceId).Perm cp.outlets := by
  apply perm_of_nodup_subset_length
  · refine List.Nodup.map_on ?_ (List.Nodup.filter _ (List.Nodup.of_map _ hn))
    intro a ha b hb hab
    simp only [List.mem_filter, decide_eq_true_eq] at ha hb
    exact List.inj_on_of_nodup_map hn ha.1 hb.1 (by simp [ha.2, hb.2, hab])
  · intro x hx
    obtain ⟨c, hc, rfl⟩ := List.mem_map.mp hx
    simp only [List.mem_filter, decide_eq_true_eq] at hc
    exact hd c hc.1 hc.2
  · rw [List.length_map]; exact hlen.ge

/-- C13: if the checks of `check_network` accept the network, then every connector
declared by every component is the end of exactly one connection and every end of a
connection is a declared connector. The connectors have to be declared as they were when
the connections were created (`Declared`); declared names are distinct in each
component. -/
theorem C13_every_connector_once_partial (cs : List ConnObj) (comps : List CompObj)
    (h1 : checkConns cs = .ok ()) (h2 : checkComponents cs comps = .ok ())
    (hd : Declared cs) (hnd : ∀ cp ∈ comps, cp.inlets.Nodup ∧ cp.outlets.Nodup) :
    (∀ cp ∈ comps, ∀ i ∈ cp.inlets, ∃! c, c ∈ cs ∧ c.target = cp ∧ c.targetId = i) ∧
    (∀ cp ∈ comps, ∀ o ∈ cp.outlets, ∃! c, c ∈ cs ∧ c.source = cp ∧ c.sourceId = o) := by
  obtain ⟨hs, ht⟩ := checkConns_ok h1
  have hc := checkComponents_ok h2
  constructor
  · intro cp hcp i hi
    obtain ⟨c, hc1, hc2⟩ := count_one_of_perm
      (target_ids_perm ht (fun c hc hct => hct ▸ (hd c hc).2) (hc cp hcp).2) (hnd cp hcp).1 hi
    simp only [List.mem_filter, decide_eq_true_eq] at hc1 hc2
    exact ⟨c, ⟨hc1.1.1, hc1.1.2, hc1.2⟩, fun d hd => hc2 d ⟨⟨hd.1, hd.2.1⟩, hd.2.2⟩⟩
  · intro cp hcp i hi
    obtain ⟨c, hc1, hc2⟩ := count_one_of_perm
      (source_ids_perm hs (fun c hc hct => hct ▸ (hd c hc).1) (hc cp hcp).1) (hnd cp hcp).2 hi
    simp only [List.mem_filter, decide_eq_true_eq] at hc1 hc2
    exact ⟨c, ⟨hc1.1.1, hc1.1.2, hc1.2⟩, fun d hd => hc2 d ⟨⟨hd.1, hd.2.1⟩, hd.2.2⟩⟩

/-- C13: networks in which two connections use one connector are rejected. -/
theorem C13_double_use_rejected (cs : List ConnObj) (a b : ConnObj) (ha : a ∈ cs) (hb : b ∈ cs)
    (hab : a ≠ b) (h : (a.source = b.source ∧ a.sourceId = b.sourceId) ∨
      (a.target = b.target ∧ a.targetId = b.targetId)) :
    checkConns cs = .error .networkError := by
  by_contra hne
  have hok : checkConns cs = .ok () := by
    unfold checkConns at hne ⊢
    split
    · rename_i h; simp [h] at hne
    · rename_i h
      split
      · rename_i h'; simp [h, h'] at hne
      · rfl
  obtain ⟨h1, h2⟩ := checkConns_ok hok
  rcases h with ⟨h, h'⟩ | ⟨h, h'⟩
  · exact hab (List.inj_on_of_nodup_map h1 ha hb (by simp [h, h']))
  · exact hab (List.inj_on_of_nodup_map h2 ha hb (by simp [h, h']))

/-- C13: networks in which a declared connector is not used are rejected: if every
connection uses declared connectors and some component has an unused one, one of the two
checks raises an error. -/
theorem C13_missing_connection_rejected (cs : List ConnObj) (comps : List CompObj)
    (hd : Declared cs) (hnd : ∀ cp ∈ comps, cp.inlets.Nodup ∧ cp.outlets.Nodup)
    (cp : CompObj) (hcp : cp ∈ comps)
    (h : (∃ i ∈ cp.inlets, ∀ c ∈ cs, ¬ (c.target = cp ∧ c.targetId = i)) ∨
      (∃ o ∈ cp.outlets, ∀ c ∈ cs, ¬ (c.source = cp ∧ c.sourceId = o))) :
    checkConns cs ≠ .ok () ∨ checkComponents cs comps ≠ .ok () := by
  by_contra hcon
  rw [not_or, not_not, not_not] at hcon
  obtain ⟨a, b⟩ := C13_every_connector_once_partial cs comps hcon.1 hcon.2 hd hnd
  rcases h with ⟨i, hi, hno⟩ | ⟨o, ho, hno⟩
  · obtain ⟨c, hc, _⟩ := a cp hcp i hi; exact hno c hc.1 hc.2
  · obtain ⟨c, hc, _⟩ := b cp hcp o ho; exact hno c hc.1 hc.2

/-- A merge whose `num_in` was reduced from 3 to 2 after connections to `in1` and `in3` had
been created. -/
def exMerge : CompObj := ⟨5, "merge", "Merge", ["in1", "in2"], ["out1"]⟩
def exSrc2 : CompObj := ⟨6, "source 2", "Source", [], ["out1"]⟩
def exBad : List ConnObj :=
  [⟨0, "1", exSrc, "out1", exMerge, "in1"⟩, ⟨1, "2", exSrc2, "out1", exMerge, "in3"⟩,
   ⟨2, "3", exMerge, "out1", exSnk, "in1"⟩]

/-- C13, the part that fails: the checks only compare numbers of connections; after the
number of connectors has been changed, a network in which an inlet is not connected is
accepted. -/
theorem C13_undeclared_connector_accepted :
    checkConns exBad = .ok () ∧ checkComponents exBad [exSrc, exSrc2, exMerge, exSnk] = .ok () ∧
    "in2" ∈ exMerge.inlets ∧ ∀ c ∈ exBad, ¬ (c.target = exMerge ∧ c.targetId = "in2") := by
  decide +kernel

-- the hypotheses are met by a small network
example : checkConns [exC1, exC2] = .ok () ∧
    checkComponents [exC1, exC2] [exSrc, exPipe, exSnk] = .ok () ∧
    Declared [exC1, exC2] ∧ ∀ cp ∈ [exSrc, exPipe, exSnk], cp.inlets.Nodup ∧ cp.outlets.Nodup := by
  unfold Declared
  decide +kernel

end Tespy
