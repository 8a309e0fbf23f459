import Mathlib.Data.List.Sort
import Verif.Props.Topology
/-
C14: pairing of numbered connectors.
-/
namespace Tespy

instance : IsTrans ConnObj (fun a b => a.targetId ≤ b.targetId) := ⟨fun _ _ _ => le_trans⟩
instance : Std.Total (α := ConnObj) (fun a b => a.targetId ≤ b.targetId) := ⟨fun _ _ => le_total _ _⟩
instance : IsTrans ConnObj (fun a b => a.sourceId ≤ b.sourceId) := ⟨fun _ _ _ => le_trans⟩
instance : Std.Total (α := ConnObj) (fun a b => a.sourceId ≤ b.sourceId) := ⟨fun _ _ => le_total _ _⟩

theorem mem_inl {cs : List ConnObj} {cp : CompObj} {c : ConnObj} :
    c ∈ inl cs cp ↔ c ∈ cs ∧ c.target = cp := by
  unfold inl; rw [List.mem_insertionSort]; simp

theorem mem_outl {cs : List ConnObj} {cp : CompObj} {c : ConnObj} :
    c ∈ outl cs cp ↔ c ∈ cs ∧ c.source = cp := by
  unfold outl; rw [List.mem_insertionSort]; simp

theorem list_prefix_lt {α} [LinearOrder α] (p a b : List α) : p ++ a < p ++ b ↔ a < b := by
  induction p with
  | nil => simp
  | cons x p ih =>
    rw [List.cons_append, List.cons_append, List.cons_lt_cons_iff]
    simp [ih]

theorem string_prefix_le (p a b : String) : p ++ a ≤ p ++ b ↔ a ≤ b := by
  rw [← not_lt, ← not_lt, String.lt_iff_toList_lt, String.lt_iff_toList_lt, String.toList_append,
    String.toList_append, list_prefix_lt]

/-- connector numbers in the order in which they appear in `inl`/`outl` -/
theorem sorted_ids_unique (pre : String) (l : List String) (nums : List String)
    (hl : l.Pairwise (· ≤ ·)) (hp : l.Perm (nums.map (pre ++ ·))) :
    l = (nums.insertionSort (· ≤ ·)).map (pre ++ ·) := by
  apply List.Perm.eq_of_pairwise' hl
  · rw [List.pairwise_map]
    exact (List.pairwise_insertionSort _ _).imp (fun h => (string_prefix_le _ _ _).mpr h)
  · exact hp.trans ((List.perm_insertionSort _ _).symm.map _)

theorem numbered_eq (pre : String) (n : ℕ) :
    numbered pre n = ((List.range n).map (fun i => toString (i + 1))).map (pre ++ ·) := by
  simp [numbered]

/-- C14: at a component with inlets `in1..inn` and outlets `out1..outn` of an accepted
network, the connections at position `k` of the inlets and of the outlets carry the same
number, for every `n` and every order of the connections. -/
theorem C14_same_number (cs : List ConnObj) (comps : List CompObj) (cp : CompObj) (n : ℕ)
    (h1 : checkConns cs = .ok ()) (h2 : checkComponents cs comps = .ok ()) (hd : Declared cs)
    (hcp : cp ∈ comps) (hi : cp.inlets = numbered "in" n) (ho : cp.outlets = numbered "out" n) :
    (inl cs cp).length = n ∧ (outl cs cp).length = n ∧
    ∀ (k : ℕ) (a b : ConnObj), (inl cs cp)[k]? = some a → (outl cs cp)[k]? = some b →
      ∃ num : ℕ, 1 ≤ num ∧ num ≤ n ∧ a.targetId = "in" ++ toString num ∧
        b.sourceId = "out" ++ toString num := by
  obtain ⟨hs, ht⟩ := checkConns_ok h1
  obtain ⟨hco, hci⟩ := checkComponents_ok h2 cp hcp
  have pi := target_ids_perm ht (fun c hc hct => hct ▸ (hd c hc).2) hci
  have po := source_ids_perm hs (fun c hc hct => hct ▸ (hd c hc).1) hco
  rw [hi, numbered_eq] at pi
  rw [ho, numbered_eq] at po
  have qi : (inl cs cp).map ConnObj.targetId
      = (((List.range n).map (fun i => toString (i + 1))).insertionSort (· ≤ ·)).map ("in" ++ ·) := by
    apply sorted_ids_unique
    · rw [List.pairwise_map]
      exact List.pairwise_insertionSort _ _
    · exact ((List.perm_insertionSort _ _).map _).trans pi
  have qo : (outl cs cp).map ConnObj.sourceId
      = (((List.range n).map (fun i => toString (i + 1))).insertionSort (· ≤ ·)).map ("out" ++ ·) := by
    apply sorted_ids_unique
    · rw [List.pairwise_map]
      exact List.pairwise_insertionSort _ _
    · exact ((List.perm_insertionSort _ _).map _).trans po
  refine ⟨?_, ?_, ?_⟩
  · have := congrArg List.length qi; simpa using this
  · have := congrArg List.length qo; simpa using this
  intro k a b ha hb
  have ea : ((inl cs cp).map ConnObj.targetId)[k]? = some a.targetId := by simp [ha]
  have eb : ((outl cs cp).map ConnObj.sourceId)[k]? = some b.sourceId := by simp [hb]
  rw [qi, List.getElem?_map, Option.map_eq_some_iff] at ea
  rw [qo, List.getElem?_map, Option.map_eq_some_iff] at eb
  obtain ⟨x, hx, hxa⟩ := ea
  obtain ⟨y, hy, hyb⟩ := eb
  rw [hx] at hy
  injection hy with hxy
  subst hxy
  have hm := List.mem_of_getElem? hx
  rw [List.mem_insertionSort] at hm
  obtain ⟨i, hi', rfl⟩ := List.mem_map.mp hm
  rw [List.mem_range] at hi'
  exact ⟨i + 1, by omega, by omega, hxa.symm, hyb.symm⟩

/-- C14: every outlet position has its inlet, `self.outl[self.inl.index(inconn)]` does not
fail and yields the outlet with the number of the inlet. -/
theorem C14_paired_outlet (cs : List ConnObj) (comps : List CompObj) (i : ConnObj) (n num : ℕ)
    (h1 : checkConns cs = .ok ()) (h2 : checkComponents cs comps = .ok ()) (hd : Declared cs)
    (hic : i ∈ cs) (hcp : i.target ∈ comps)
    (hi : i.target.inlets = numbered "in" n) (ho : i.target.outlets = numbered "out" n)
    (hnum : i.targetId = "in" ++ toString num) :
    ∃ o, paired cs i = .ok o ∧ o ∈ cs ∧ o.source = i.target ∧ o.sourceId = "out" ++ toString num := by
  obtain ⟨l1, l2, hk⟩ := C14_same_number cs comps i.target n h1 h2 hd hcp hi ho
  have hmem : i ∈ inl cs i.target := by
    unfold inl; rw [List.mem_insertionSort]; simp [hic]
  have hlt : (inl cs i.target).idxOf i < (inl cs i.target).length := List.idxOf_lt_length_iff.mpr hmem
  have hlt' : (inl cs i.target).idxOf i < (outl cs i.target).length := by omega
  refine ⟨(outl cs i.target)[(inl cs i.target).idxOf i], ?_, ?_, ?_, ?_⟩
  · unfold paired; rw [if_pos hmem, List.getElem?_eq_getElem hlt']
  · exact (mem_outl.mp (List.getElem_mem hlt')).1
  · exact (mem_outl.mp (List.getElem_mem hlt')).2
  · obtain ⟨m, _, _, e1, e2⟩ := hk _ i _
      (by rw [List.getElem?_eq_getElem hlt, List.getElem_idxOf]) (List.getElem?_eq_getElem hlt')
    rw [hnum] at e1
    have : toString num = toString m := by
      have := congrArg String.toList e1
      rw [String.toList_append, String.toList_append, List.append_cancel_left_eq] at this
      exact String.toList_inj.mp this
    rw [e2, this]

/-- an interface with 11 connections: sorted as text, `in10` comes before `in2` -/
def exIface : CompObj := ⟨9, "interface", "SubsystemInterface", numbered "in" 11, numbered "out" 11⟩
def exIfaceSrc (k : ℕ) : CompObj := ⟨100 + k, "so" ++ toString k, "Source", [], ["out1"]⟩
def exIfaceSnk (k : ℕ) : CompObj := ⟨200 + k, "si" ++ toString k, "Sink", ["in1"], []⟩
def exIfaceConns : List ConnObj :=
  (List.range 11).map (fun k => ⟨k, "i" ++ toString k, exIfaceSrc k, "out1", exIface, "in" ++ toString (k + 1)⟩)
  ++ (List.range 11).reverse.map (fun k => ⟨50 + k, "o" ++ toString k, exIface, "out" ++ toString (k + 1), exIfaceSnk k, "in1"⟩)

-- non-vacuity: 11 connections per side, pairing by text order but equal numbers
example : checkConns exIfaceConns = .ok () ∧ checkComponents exIfaceConns [exIface] = .ok () ∧
    Declared exIfaceConns ∧
    ((inl exIfaceConns exIface)[1]?.map ConnObj.targetId) = some "in10" ∧
    ((outl exIfaceConns exIface)[1]?.map ConnObj.sourceId) = some "out10" := by
  unfold Declared
  decide +kernel

end Tespy
