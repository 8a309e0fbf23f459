import Verif.Lemmas.DictLemmas
import Verif.Spec.Branches
import Verif.Props.Connectors
namespace Tespy

/-! ### trees -/

theorem flat_mk (cs ps ss) : (Branch.mk cs ps ss).flat = (cs, ps) :: flatAll ss := by
  rw [Branch.flat]
  split
  · rename_i h
    have : ss = [] := List.length_eq_zero_iff.mp h
    subst this; simp [flatAll]
  · rfl

theorem flatAll_append (a b : List (String × Branch)) : flatAll (a ++ b) = flatAll a ++ flatAll b := by
  induction a with
  | nil => simp [flatAll]
  | cons e a ih => obtain ⟨l, br⟩ := e; simp [flatAll, ih, List.append_assoc]

/-- all connections of a branch and its subbranches -/
def Branch.all (b : Branch) : List ConnObj := b.flat.flatMap Prod.fst
/-- all connections of a dictionary of branches -/
def allOf (d : Dict String Branch) : List ConnObj := (flatAll d).flatMap Prod.fst

theorem Branch.all_eq (b : Branch) : b.all = b.conns ++ allOf b.subs := by
  cases b with
  | mk cs ps ss => simp [Branch.all, flat_mk, allOf, Branch.conns, Branch.subs]

theorem allOf_set_fresh (d : Dict String Branch) (k : String) (b : Branch) (h : k ∉ d.keys) :
    allOf (Dict.set d k b) = allOf d ++ b.all := by
  rw [Dict.set_of_not_mem _ h]
  simp only [allOf, flatAll_append, List.flatMap_append]
  congr 1
  simp [flatAll, Branch.all]

theorem Branch.all_push (b : Branch) (o : ConnObj) : (b.push o).all.Perm (b.all ++ [o]) := by
  rw [Branch.all_eq, Branch.all_eq]
  show ((b.conns ++ [o]) ++ allOf b.subs).Perm _
  rw [List.append_assoc, List.append_assoc]
  exact List.Perm.append_left _ List.perm_append_comm

theorem Branch.all_addSub (b : Branch) (o : ConnObj) (s : Branch) (h : o.label ∉ b.subs.keys) :
    (b.addSub o s).all = b.all ++ s.all := by
  rw [Branch.all_eq, Branch.all_eq b]
  show b.conns ++ allOf (Dict.set b.subs o.label s) = _
  rw [allOf_set_fresh _ _ _ h, List.append_assoc]

theorem Branch.all_start (cp : CompObj) (o : ConnObj) : (Branch.start cp o).all = [o] := by
  rw [Branch.all_eq]; simp [Branch.start, Branch.conns, Branch.subs, allOf, flatAll]

/-- keys of the subbranches are labels of collected connections -/
def KeysIn (d : Dict String Branch) (l : List ConnObj) : Prop := ∀ k ∈ d.keys, ∃ c ∈ l, c.label = k

theorem KeysIn.mono {d l l'} (h : KeysIn d l) (hl : l ⊆ l') : KeysIn d l' := by
  intro k hk; obtain ⟨c, hc, e⟩ := h k hk; exact ⟨c, hl hc, e⟩

theorem KeysIn.set {d l} (o : ConnObj) (b : Branch) (h : KeysIn d l) (ho : o ∈ l) :
    KeysIn (Dict.set d o.label b) l := by
  intro k hk
  by_cases hm : o.label ∈ d.keys
  · rw [Dict.keys_set_of_mem _ hm] at hk; exact h k hk
  · rw [Dict.set_of_not_mem _ hm] at hk
    simp only [Dict.keys, List.map_append, List.mem_append, List.map_cons, List.map_nil,
      List.mem_singleton] at hk
    rcases hk with hk | rfl
    · exact h k hk
    · exact ⟨o, ho, rfl⟩

/-! ### connectors of an accepted network -/

section accepted
variable {cs : List ConnObj} {comps : List CompObj}

theorem Accepted.conns_nodup (A : Accepted cs comps) : cs.Nodup := List.Nodup.of_map _ A.labels

theorem Accepted.label_inj (A : Accepted cs comps) {a b : ConnObj} (ha : a ∈ cs) (hb : b ∈ cs)
    (h : a.label = b.label) : a = b := List.inj_on_of_nodup_map A.labels ha hb h

theorem Accepted.target_inj (A : Accepted cs comps) {a b : ConnObj} (ha : a ∈ cs) (hb : b ∈ cs)
    (h : a.target = b.target) (h' : a.targetId = b.targetId) : a = b :=
  List.inj_on_of_nodup_map (checkConns_ok A.conns).2 ha hb (by simp [h, h'])

theorem Accepted.source_inj (A : Accepted cs comps) {a b : ConnObj} (ha : a ∈ cs) (hb : b ∈ cs)
    (h : a.source = b.source) (h' : a.sourceId = b.sourceId) : a = b :=
  List.inj_on_of_nodup_map (checkConns_ok A.conns).1 ha hb (by simp [h, h'])

theorem Accepted.inl_nodup (A : Accepted cs comps) (cp : CompObj) : (inl cs cp).Nodup :=
  (List.perm_insertionSort _ _).nodup_iff.mpr (A.conns_nodup.filter _)

theorem Accepted.outl_nodup (A : Accepted cs comps) (cp : CompObj) : (outl cs cp).Nodup :=
  (List.perm_insertionSort _ _).nodup_iff.mpr (A.conns_nodup.filter _)

theorem Accepted.inl_ids (A : Accepted cs comps) {cp : CompObj} (h : cp ∈ comps)
    (hs : cp.inlets.Pairwise (· ≤ ·)) : (inl cs cp).map ConnObj.targetId = cp.inlets := by
  apply List.Perm.eq_of_pairwise' _ hs
  · exact ((List.perm_insertionSort _ _).map _).trans
      (target_ids_perm (checkConns_ok A.conns).2 (fun c hc hct => hct ▸ (A.declared c hc).2)
        (checkComponents_ok A.compsOk cp h).2)
  · rw [List.pairwise_map]; exact List.pairwise_insertionSort _ _

theorem Accepted.outl_ids (A : Accepted cs comps) {cp : CompObj} (h : cp ∈ comps)
    (hs : cp.outlets.Pairwise (· ≤ ·)) : (outl cs cp).map ConnObj.sourceId = cp.outlets := by
  apply List.Perm.eq_of_pairwise' _ hs
  · exact ((List.perm_insertionSort _ _).map _).trans
      (source_ids_perm (checkConns_ok A.conns).1 (fun c hc hct => hct ▸ (A.declared c hc).1)
        (checkComponents_ok A.compsOk cp h).1)
  · rw [List.pairwise_map]; exact List.pairwise_insertionSort _ _

theorem getElem?_of_ids {β} {l : List ConnObj} {f : ConnObj → β} {m : List β} {c : ConnObj} {k : ℕ}
    (hm : l.map f = m) (hn : m.Nodup) (hc : c ∈ l) (hk : m[k]? = some (f c)) : l[k]? = some c := by
  subst hm
  rw [List.getElem?_map, Option.map_eq_some_iff] at hk
  obtain ⟨d, hd, e⟩ := hk
  rw [hd]
  rw [List.inj_on_of_nodup_map hn (List.mem_of_getElem? hd) hc e]

theorem idxOf_of_getElem? {l : List ConnObj} (hn : l.Nodup) {c : ConnObj} {k : ℕ}
    (h : l[k]? = some c) : l.idxOf c = k := by
  obtain ⟨hk, e⟩ := List.getElem?_eq_some_iff.mp h
  subst e
  exact hn.idxOf_getElem k hk

/-- the outlets reached from connection `i` -/
def succs (cs : List ConnObj) (i : ConnObj) : List ConnObj :=
  match i.target.pass with
  | .stop => []
  | .through => (paired cs i).toOption.toList
  | .fanout => outl cs i.target
  | .drum => if i.targetId = "in2" then [] else outl cs i.target
  | .engine => if i ∈ (inl cs i.target).drop 2 then [] else (paired cs i).toOption.toList
  | .reactor => if (inl cs i.target)[0]? = some i then (paired cs i).toOption.toList else []

theorem IsA.pass {cp : CompObj} {k : Cls} (h : cp.IsA k) : cp.pass = k.pass := by
  unfold CompObj.pass; rw [h.1]

theorem through_numbered (k : Cls) (h : k.pass = .through) (hk : k ≠ .source) (n : ℕ) :
    ∃ m, k.inlets n = numbered "in" m ∧ k.outlets n = numbered "out" m := by
  have a1 : ["in1"] = numbered "in" 1 := by decide +kernel
  have b1 : ["out1"] = numbered "out" 1 := by decide +kernel
  have a2 : ["in1", "in2"] = numbered "in" 2 := by decide +kernel
  have b2 : ["out1", "out2"] = numbered "out" 2 := by decide +kernel
  cases k <;> first
    | (exfalso; revert h; decide)
    | exact absurd rfl hk
    | exact ⟨n, rfl, rfl⟩
    | exact ⟨1, a1, b1⟩
    | exact ⟨2, a2, b2⟩

theorem Accepted.through_paired (A : Accepted cs comps) {i : ConnObj} (hi : i ∈ cs)
    (hp : i.target.pass = .through) :
    ∃ o num, paired cs i = .ok o ∧ o ∈ cs ∧ o.source = i.target ∧
      i.targetId = "in" ++ toString num ∧ o.sourceId = "out" ++ toString (num : ℕ) := by
  have ht := (A.listed i hi).2
  obtain ⟨k, hk⟩ := A.classes _ ht
  rw [IsA.pass hk] at hp
  have hns : k ≠ .source := by
    rintro rfl
    obtain ⟨_, n, h1, _⟩ := hk
    have := (A.declared i hi).2
    rw [h1] at this
    simp [Cls.inlets] at this
  obtain ⟨_, n, h1, h2⟩ := hk
  obtain ⟨m, e1, e2⟩ := through_numbered k hp hns n
  have hd := (A.declared i hi).2
  rw [h1, e1] at hd
  obtain ⟨j, hj, e⟩ := List.mem_map.mp hd
  obtain ⟨o, a, b, c, d⟩ := C14_paired_outlet cs comps i m (j + 1) A.conns A.compsOk A.declared hi ht
    (h1.trans e1) (h2.trans e2) e.symm
  exact ⟨o, j + 1, a, b, c, e.symm, d⟩

theorem Accepted.paired_at (A : Accepted cs comps) {i o : ConnObj} (hi : i ∈ cs)
    (k : ℕ) (h : (inl cs i.target)[k]? = some i) (h' : (outl cs i.target)[k]? = some o) :
    paired cs i = .ok o := by
  unfold paired
  rw [if_pos (mem_inl.mpr ⟨hi, rfl⟩), idxOf_of_getElem? (A.inl_nodup _) h, h']

theorem pass_cases (k : Cls) :
    (k.pass = .fanout → ∀ n, k.inlets n = ["in1"]) ∧
    (k.pass = .drum → k = .drum) ∧ (k.pass = .engine → k = .combustionEngine) ∧
    (k.pass = .reactor → k = .fuelCell ∨ k = .waterElectrolyzer) := by
  cases k <;> simp [Cls.pass, Cls.inlets]

theorem toString_inj {a b : ℕ} {p : String} (h : p ++ toString a = p ++ toString b) :
    toString a = toString b := by
  have := congrArg String.toList h
  rw [String.toList_append, String.toList_append, List.append_cancel_left_eq] at this
  exact String.toList_inj.mp this

theorem Accepted.engine_ids (A : Accepted cs comps) {cp : CompObj} (h : cp ∈ comps)
    (hk : cp.IsA .combustionEngine) :
    (inl cs cp).map ConnObj.targetId = ["in1", "in2", "in3", "in4"] ∧
    (outl cs cp).map ConnObj.sourceId = ["out1", "out2", "out3"] := by
  obtain ⟨_, n, h1, h2⟩ := hk
  simp only [Cls.inlets, Cls.outlets] at h1 h2
  constructor
  · rw [A.inl_ids h (by rw [h1]; decide +kernel), h1]
  · rw [A.outl_ids h (by rw [h2]; decide +kernel), h2]

theorem Accepted.fuelCell_ids (A : Accepted cs comps) {cp : CompObj} (h : cp ∈ comps)
    (hk : cp.IsA .fuelCell) :
    (inl cs cp).map ConnObj.targetId = ["in1", "in2", "in3"] ∧
    (outl cs cp).map ConnObj.sourceId = ["out1", "out2"] := by
  obtain ⟨_, n, h1, h2⟩ := hk
  simp only [Cls.inlets, Cls.outlets] at h1 h2
  constructor
  · rw [A.inl_ids h (by rw [h1]; decide +kernel), h1]
  · rw [A.outl_ids h (by rw [h2]; decide +kernel), h2]

theorem Accepted.electrolyzer_ids (A : Accepted cs comps) {cp : CompObj} (h : cp ∈ comps)
    (hk : cp.IsA .waterElectrolyzer) :
    (inl cs cp).map ConnObj.targetId = ["in1", "in2"] ∧
    (outl cs cp).map ConnObj.sourceId = ["out1", "out2", "out3"] := by
  obtain ⟨_, n, h1, h2⟩ := hk
  simp only [Cls.inlets, Cls.outlets] at h1 h2
  constructor
  · rw [A.inl_ids h (by rw [h1]; decide +kernel), h1]
  · rw [A.outl_ids h (by rw [h2]; decide +kernel), h2]

theorem exists_at {l : List ConnObj} {f : ConnObj → String} {m : List String} (h : l.map f = m)
    {k : ℕ} {x : String} (hx : m[k]? = some x) : ∃ c, l[k]? = some c ∧ f c = x := by
  subst h
  rw [List.getElem?_map, Option.map_eq_some_iff] at hx
  exact hx

theorem Accepted.reactor_ids (A : Accepted cs comps) {cp : CompObj} (h : cp ∈ comps)
    (hp : cp.pass = .reactor) :
    ∃ m m', (inl cs cp).map ConnObj.targetId = m ∧ (outl cs cp).map ConnObj.sourceId = m' ∧
      m.Nodup ∧ m'.Nodup ∧ m[0]? = some "in1" ∧ m'[0]? = some "out1" := by
  obtain ⟨k, hk⟩ := A.classes _ h
  rw [IsA.pass hk] at hp
  rcases (pass_cases k).2.2.2 hp with rfl | rfl
  · obtain ⟨a, b⟩ := A.fuelCell_ids h hk
    exact ⟨_, _, a, b, by decide +kernel, by decide +kernel, rfl, rfl⟩
  · obtain ⟨a, b⟩ := A.electrolyzer_ids h hk
    exact ⟨_, _, a, b, by decide +kernel, by decide +kernel, rfl, rfl⟩

/-- the successors computed from list positions are the connections the stream goes on in -/
theorem Accepted.mem_succs (A : Accepted cs comps) {i o : ConnObj} (hi : i ∈ cs) :
    o ∈ succs cs i ↔ o ∈ cs ∧ Continues i o := by
  have ht := (A.listed i hi).2
  obtain ⟨k, hk⟩ := A.classes _ ht
  unfold succs Continues
  cases hp : i.target.pass with
  | stop => simp
  | fanout => simp [mem_outl]
  | through =>
    obtain ⟨o', num, h1, h2, h3, h4, h5⟩ := A.through_paired hi hp
    simp only [h1, Except.toOption, Option.toList_some, List.mem_singleton]
    constructor
    · rintro rfl; exact ⟨h2, h3, num, h4, h5⟩
    · rintro ⟨a, b, num', c, d⟩
      refine A.source_inj a h2 (b.trans h3.symm) ?_
      rw [d, h5, toString_inj (h4.symm.trans c)]
  | drum =>
    rw [IsA.pass hk] at hp
    obtain rfl := (pass_cases k).2.1 hp
    obtain ⟨_, n, h1, h2⟩ := hk
    have hd := (A.declared i hi).2
    rw [h1] at hd
    simp only [Cls.inlets, List.mem_cons, List.not_mem_nil, or_false] at hd
    simp only
    rcases hd with hd | hd
    · have : i.targetId ≠ "in2" := by rw [hd]; decide +kernel
      rw [if_neg this, mem_outl]; simp [hd]
    · rw [if_pos hd]; simp [hd]
  | engine =>
    rw [IsA.pass hk] at hp
    obtain rfl := (pass_cases k).2.2.1 hp
    obtain ⟨e1, e2⟩ := A.engine_ids ht hk
    have him := mem_inl.mpr ⟨hi, rfl⟩
    have hd := List.mem_map_of_mem (f := ConnObj.targetId) him
    rw [e1] at hd
    have hn : ["in1", "in2", "in3", "in4"].Nodup := by decide +kernel
    have hdrop : ∀ m, (inl cs i.target)[m]? = some i → (i ∈ (inl cs i.target).drop 2 ↔ 2 ≤ m) := by
      intro m hm
      rw [List.mem_iff_getElem?]
      constructor
      · rintro ⟨j, hj⟩
        rw [List.getElem?_drop] at hj
        have a := idxOf_of_getElem? (A.inl_nodup _) hj
        have b := idxOf_of_getElem? (A.inl_nodup _) hm
        omega
      · intro h2; exact ⟨m - 2, by rw [List.getElem?_drop]; rw [show 2 + (m - 2) = m by omega]; exact hm⟩
    simp only
    have key : ∀ m, (["in1", "in2", "in3", "in4"] : List String)[m]? = some i.targetId → m < 2 →
        ∀ x, (["out1", "out2", "out3"] : List String)[m]? = some x →
        (o ∈ (if i ∈ (inl cs i.target).drop 2 then [] else (paired cs i).toOption.toList) ↔
          o ∈ cs ∧ o.source = i.target ∧ o.sourceId = x) := by
      intro m hm hlt x hx
      have hg := getElem?_of_ids e1 hn him hm
      obtain ⟨c, hc, hcx⟩ := exists_at e2 hx
      rw [if_neg (by rw [hdrop m hg]; omega), A.paired_at hi m hg hc]
      have hcm := mem_outl.mp (List.mem_of_getElem? hc)
      simp only [Except.toOption, Option.toList_some, List.mem_singleton]
      constructor
      · rintro rfl; exact ⟨hcm.1, hcm.2, hcx⟩
      · rintro ⟨a, b, d⟩; exact A.source_inj a hcm.1 (b.trans hcm.2.symm) (d.trans hcx.symm)
    have key' : ∀ m, (["in1", "in2", "in3", "in4"] : List String)[m]? = some i.targetId → 2 ≤ m →
        ¬ o ∈ (if i ∈ (inl cs i.target).drop 2 then [] else (paired cs i).toOption.toList) := by
      intro m hm hle
      have hg := getElem?_of_ids e1 hn him hm
      rw [if_pos ((hdrop m hg).mpr hle)]; simp
    simp only [List.mem_cons, List.not_mem_nil, or_false] at hd
    rcases hd with hd | hd | hd | hd
    · rw [key 0 (by rw [hd]; rfl) (by omega) "out1" rfl]; simp [hd]
    · rw [key 1 (by rw [hd]; rfl) (by omega) "out2" rfl]; simp [hd]
    · have := key' 2 (by rw [hd]; rfl) (by omega); simp only [this, hd]; simp
    · have := key' 3 (by rw [hd]; rfl) (by omega); simp only [this, hd]; simp
  | reactor =>
    obtain ⟨m, m', e1, e2, n1, n2, z1, z2⟩ := A.reactor_ids ht hp
    have him := mem_inl.mpr ⟨hi, rfl⟩
    obtain ⟨o', ho', hox⟩ := exists_at e2 z2
    have hom := mem_outl.mp (List.mem_of_getElem? ho')
    simp only
    by_cases h0 : (inl cs i.target)[0]? = some i
    · rw [if_pos h0, A.paired_at hi 0 h0 ho']
      obtain ⟨c, hc, hcx⟩ := exists_at e1 z1
      rw [h0] at hc; injection hc with hc; subst hc
      simp only [Except.toOption, Option.toList_some, List.mem_singleton]
      constructor
      · rintro rfl; exact ⟨hom.1, hom.2, hcx, hox⟩
      · rintro ⟨a, b, _, d⟩; exact A.source_inj a hom.1 (b.trans hom.2.symm) (d.trans hox.symm)
    · rw [if_neg h0]
      simp only [List.not_mem_nil, false_iff, not_and]
      intro _ _ h
      exact absurd (getElem?_of_ids e1 n1 him (by rw [z1, h])) h0

theorem toOption_nodup {r : PyRes ConnObj} : r.toOption.toList.Nodup := by
  cases r <;> simp [Except.toOption]

theorem Accepted.succs_nodup (A : Accepted cs comps) (i : ConnObj) : (succs cs i).Nodup := by
  unfold succs
  cases i.target.pass with
  | stop => simp
  | through => exact toOption_nodup
  | fanout => exact A.outl_nodup _
  | drum => simp only; split; · simp
            · exact A.outl_nodup _
  | engine => simp only; split; · simp
              · exact toOption_nodup
  | reactor => simp only; split; · exact toOption_nodup
               · simp

/-- a connection continues at most one connection -/
theorem Accepted.continues_unique (A : Accepted cs comps) {i j o : ConnObj} (hi : i ∈ cs)
    (hj : j ∈ cs) (h1 : Continues i o) (h2 : Continues j o) : i = j := by
  have htt : i.target = j.target := h1.1.symm.trans h2.1
  refine A.target_inj hi hj htt ?_
  have ht := (A.listed i hi).2
  obtain ⟨k, hk⟩ := A.classes _ ht
  unfold Continues at h1 h2
  rw [← htt] at h2
  cases hp : i.target.pass with
  | stop => simp [hp] at h1
  | through =>
    simp only [hp] at h1 h2
    obtain ⟨_, n1, a1, b1⟩ := h1
    obtain ⟨_, n2, a2, b2⟩ := h2
    rw [a1, a2, toString_inj (b1.symm.trans b2)]
  | fanout =>
    rw [IsA.pass hk] at hp
    obtain ⟨_, n, e1, _⟩ := hk
    have d1 := (A.declared i hi).2
    have d2 := (A.declared j hj).2
    rw [← htt] at d2
    rw [e1, (pass_cases k).1 hp] at d1 d2
    simp only [List.mem_singleton] at d1 d2
    rw [d1, d2]
  | drum => simp only [hp] at h1 h2; rw [h1.2, h2.2]
  | engine =>
    simp only [hp] at h1 h2
    have : ("out1" : String) ≠ "out2" := by decide +kernel
    rcases h1.2 with ⟨a, b⟩ | ⟨a, b⟩ <;> rcases h2.2 with ⟨c, d⟩ | ⟨c, d⟩
    · rw [a, c]
    · exact absurd (b.symm.trans d) this
    · exact absurd (d.symm.trans b) this
    · rw [a, c]
  | reactor => simp only [hp] at h1 h2; rw [h1.2.1, h2.2.1]

/-- no stream goes on into the first connection of a branch -/
theorem Accepted.start_not_continued (A : Accepted cs comps) {i s : ConnObj} (hi : i ∈ cs)
    (hs : BranchStart s) : ¬ Continues i s := by
  intro h
  have ht := (A.listed i hi).2
  obtain ⟨k, hk⟩ := A.classes _ ht
  have hc := h.1
  unfold BranchStart at hs
  rw [hc, hk.1] at hs
  have h2 := h.2
  rw [IsA.pass hk] at h2
  have n13 : ("out1" : String) ≠ "out3" := by decide +kernel
  have n23 : ("out2" : String) ≠ "out3" := by decide +kernel
  have n12 : ("out1" : String) ≠ "out2" := by decide +kernel
  cases k <;> simp only [Cls.pass] at h2 hs
  · obtain ⟨_, n, e, _⟩ := hk
    have := (A.declared i hi).2
    rw [e] at this; simp [Cls.inlets] at this
  · rcases h2 with ⟨_, h2⟩ | ⟨_, h2⟩
    · exact n13 (h2.symm.trans hs)
    · exact n23 (h2.symm.trans hs)
  · exact n12 (h2.2.symm.trans hs)
  · rcases hs with hs | hs
    · exact n12 (h2.2.symm.trans hs)
    · exact n13 (h2.2.symm.trans hs)

end accepted
end Tespy
