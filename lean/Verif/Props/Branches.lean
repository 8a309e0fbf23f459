import Mathlib.Data.List.Perm.Subperm
import Verif.Lemmas.Branches
/-
C15: the search for mass flow branches. C16: flattening of the branch tree.
-/
namespace Tespy

section search
variable {cs : List ConnObj} {comps : List CompObj}

/-- all connections below `i`, up to depth `n` -/
def desc (cs : List ConnObj) : ℕ → ConnObj → List ConnObj
  | 0, _ => []
  | n + 1, i => (succs cs i).flatMap (fun o => o :: desc cs n o)

/-- every path below `i` ends before `n` steps -/
def Ends (cs : List ConnObj) : ℕ → ConnObj → Prop
  | 0, _ => False
  | n + 1, i => ∀ o ∈ succs cs i, Ends cs n o

/-- `o` is `k` steps downstream of the start `s` -/
inductive Below (cs : List ConnObj) (s : ConnObj) : ℕ → ConnObj → Prop
  | zero : Below cs s 0 s
  | succ {k i o} : Below cs s k i → i ∈ cs → o ∈ cs → Continues i o → Below cs s (k + 1) o

theorem Below.mem {s o : ConnObj} {k : ℕ} (h : Below cs s k o) (hs : s ∈ cs) : o ∈ cs := by
  cases h with
  | zero => exact hs
  | succ _ _ h _ => exact h

theorem Below.downstream {s o : ConnObj} {k : ℕ} (h : Below cs s k o) (hs : s ∈ cs)
    (hb : BranchStart s) : Downstream cs o := by
  induction h with
  | zero => exact Downstream.start hs hb
  | succ _ _ ho hc ih => exact Downstream.next ih ho hc

theorem Below.unique (A : Accepted cs comps) {s s' : ConnObj} (hs : BranchStart s)
    (hs' : BranchStart s') {k k' : ℕ} {o : ConnObj} (h : Below cs s k o) (h' : Below cs s' k' o) :
    k = k' ∧ s = s' := by
  induction h generalizing k' with
  | zero =>
    cases h' with
    | zero => exact ⟨rfl, rfl⟩
    | succ _ hi _ hc => exact absurd hc (A.start_not_continued hi hs)
  | succ _ hi _ hc ih =>
    cases h' with
    | zero => exact absurd hc (A.start_not_continued hi hs')
    | succ hb hi' _ hc' =>
      have := A.continues_unique hi hi' hc hc'
      subst this
      obtain ⟨a, b⟩ := ih hb
      exact ⟨by omega, b⟩

theorem Below.trans_root (A : Accepted cs comps) {c1 c2 o : ConnObj} {k : ℕ}
    (h1 : Below cs c1 k o) (h2 : Below cs c2 k o) : c1 = c2 := by
  induction h1 generalizing c2 with
  | zero => cases h2; rfl
  | succ _ hi _ hc ih =>
    cases h2 with
    | succ hb hi' _ hc' =>
      have := A.continues_unique hi hi' hc hc'
      subst this
      exact ih hb

theorem Below.comp {s c o : ConnObj} {j k : ℕ} (h1 : Below cs s j c) (h2 : Below cs c k o) :
    Below cs s (j + k) o := by
  induction h2 with
  | zero => exact h1
  | succ _ hi ho hc ih => exact Below.succ ih hi ho hc

theorem Below.chain (A : Accepted cs comps) {s o : ConnObj} {k : ℕ} (hs : BranchStart s)
    (hsc : s ∈ cs) (h : Below cs s k o) :
    ∃ l : List ConnObj, l.length = k + 1 ∧ l.Nodup ∧ (∀ c ∈ l, c ∈ cs ∧ ∃ j ≤ k, Below cs s j c) := by
  induction h with
  | zero => exact ⟨[s], rfl, by simp, by simp [hsc]; exact Below.zero⟩
  | @succ k i o hb hi ho hc ih =>
    obtain ⟨l, h1, h2, h3⟩ := ih
    have hbo := Below.succ hb hi ho hc
    refine ⟨o :: l, by simp [h1], ?_, ?_⟩
    · rw [List.nodup_cons]
      refine ⟨fun hm => ?_, h2⟩
      obtain ⟨_, j, hj, hbj⟩ := h3 o hm
      have := (Below.unique A hs hs hbo hbj).1
      omega
    · intro c hc'
      rcases List.mem_cons.mp hc' with rfl | hc'
      · exact ⟨ho, k + 1, le_refl _, hbo⟩
      · obtain ⟨a, j, hj, b⟩ := h3 c hc'; exact ⟨a, j, by omega, b⟩

theorem Below.lt_length (A : Accepted cs comps) {s o : ConnObj} {k : ℕ} (hs : BranchStart s)
    (hsc : s ∈ cs) (h : Below cs s k o) : k + 1 ≤ cs.length := by
  obtain ⟨l, h1, h2, h3⟩ := Below.chain A hs hsc h
  rw [← h1]
  exact (h2.subperm (fun c hc => (h3 c hc).1)).length_le

theorem ends_of_below (A : Accepted cs comps) {s : ConnObj} (hs : BranchStart s) (hsc : s ∈ cs)
    (n : ℕ) : ∀ {k : ℕ} {o : ConnObj}, Below cs s k o → cs.length ≤ k + n → Ends cs n o := by
  induction n with
  | zero =>
    intro k o h hl
    have := Below.lt_length A hs hsc h
    omega
  | succ n ih =>
    intro k o h hl o' ho'
    have hoc := h.mem hsc
    have := (A.mem_succs hoc).mp ho'
    exact ih (Below.succ h hoc this.1 this.2) (by omega)

theorem mem_desc (A : Accepted cs comps) {n : ℕ} : ∀ {i o : ConnObj}, i ∈ cs → o ∈ desc cs n i →
    ∃ k, 1 ≤ k ∧ Below cs i k o := by
  induction n with
  | zero => intro i o _ h; simp [desc] at h
  | succ n ih =>
    intro i o hi h
    simp only [desc, List.mem_flatMap, List.mem_cons] at h
    obtain ⟨c, hc, h⟩ := h
    have hc' := (A.mem_succs hi).mp hc
    have h1 : Below cs i 1 c := Below.succ Below.zero hi hc'.1 hc'.2
    rcases h with rfl | h
    · exact ⟨1, le_refl _, h1⟩
    · obtain ⟨k, hk, hb⟩ := ih hc'.1 h
      exact ⟨1 + k, by omega, Below.comp h1 hb⟩

theorem desc_complete (A : Accepted cs comps) {n : ℕ} : ∀ {i o : ConnObj} {k : ℕ}, i ∈ cs →
    Ends cs n i → Below cs i (k + 1) o → o ∈ desc cs n i := by
  intro i o k hi
  -- peel the first step of the path
  have peel : ∀ {k : ℕ} {o : ConnObj}, Below cs i (k + 1) o →
      ∃ c, c ∈ cs ∧ Continues i c ∧ Below cs c k o := by
    intro k
    induction k with
    | zero =>
      intro o h
      cases h with
      | succ hb _ ho hc => cases hb; exact ⟨o, ho, hc, Below.zero⟩
    | succ k ih =>
      intro o h
      cases h with
      | succ hb hi' ho hc =>
        obtain ⟨c, h1, h2, h3⟩ := ih hb
        exact ⟨c, h1, h2, Below.succ h3 hi' ho hc⟩
  induction n generalizing i o k with
  | zero => intro h; exact absurd h (by simp [Ends])
  | succ n ih =>
    intro he hb
    obtain ⟨c, h1, h2, h3⟩ := peel hb
    have hcs : c ∈ succs cs i := (A.mem_succs hi).mpr ⟨h1, h2⟩
    simp only [desc, List.mem_flatMap, List.mem_cons]
    refine ⟨c, hcs, ?_⟩
    cases k with
    | zero => cases h3; exact Or.inl rfl
    | succ k =>
      right
      refine ih h1 ?_ (he c hcs) h3
      intro k
      induction k with
      | zero =>
        intro o h
        cases h with
        | succ hb _ ho hc => cases hb; exact ⟨o, ho, hc, Below.zero⟩
      | succ k ih =>
        intro o h
        cases h with
        | succ hb hi' ho hc =>
          obtain ⟨c, h1, h2, h3⟩ := ih hb
          exact ⟨c, h1, h2, Below.succ h3 hi' ho hc⟩

theorem desc_nodup (A : Accepted cs comps) {s : ConnObj} (hs : BranchStart s) (hsc : s ∈ cs)
    (n : ℕ) : ∀ {k : ℕ} {i : ConnObj}, Below cs s k i → (i :: desc cs n i).Nodup := by
  induction n with
  | zero => intro k i _; simp [desc]
  | succ n ih =>
    intro k i hb
    have hi := hb.mem hsc
    have hstep : ∀ c ∈ succs cs i, c ∈ cs ∧ Below cs s (k + 1) c := fun c hc => by
      have := (A.mem_succs hi).mp hc
      exact ⟨this.1, Below.succ hb hi this.1 this.2⟩
    have hel : ∀ c ∈ succs cs i, ∀ e ∈ c :: desc cs n c, ∃ j, Below cs c j e := by
      intro c hc e he
      rcases List.mem_cons.mp he with rfl | he
      · exact ⟨0, Below.zero⟩
      · obtain ⟨j, _, hj⟩ := mem_desc A (hstep c hc).1 he; exact ⟨j, hj⟩
    rw [List.nodup_cons]
    constructor
    · intro hm
      obtain ⟨j, hj, hbj⟩ := mem_desc (n := n + 1) A hi hm
      have := (Below.unique A hs hs hb (Below.comp hb hbj)).1
      omega
    · simp only [desc]
      rw [List.nodup_flatMap]
      refine ⟨fun c hc => ih (hstep c hc).2, ?_⟩
      refine (A.succs_nodup i).imp_of_mem (fun {a b} ha hb' hne => ?_)
      intro e hea heb
      obtain ⟨ja, hja⟩ := hel a ha e hea
      obtain ⟨jb, hjb⟩ := hel b hb' e heb
      have e1 := Below.comp (hstep a ha).2 hja
      have e2 := Below.comp (hstep b hb').2 hjb
      have := (Below.unique A hs hs e1 e2).1
      have hj : ja = jb := by omega
      subst hj
      exact hne (Below.trans_root A hja hjb)

/-! ### the recursive search collects exactly `desc` -/

theorem fresh_label (A : Accepted cs comps) {d : Dict String Branch} {l : List ConnObj}
    (hk : KeysIn d l) (hl : l ⊆ cs) {o : ConnObj} (ho : o ∈ cs) (hn : o ∉ l) : o.label ∉ d.keys := by
  intro h
  obtain ⟨c, hc, e⟩ := hk _ h
  have := A.label_inj (hl hc) ho e
  exact hn (this ▸ hc)

/-- what the recursive call does -/
def GoSpec (cs : List ConnObj) (n : ℕ) : Prop :=
  ∀ (i : ConnObj) (b : Branch), b.conns.getLast? = some i → i ∈ cs → Ends cs n i →
    b.all ⊆ cs → desc cs n i ⊆ cs → (b.all ++ desc cs n i).Nodup → KeysIn b.subs b.all →
    ∃ b', propagate cs n b = .ok b' ∧ b'.all.Perm (b.all ++ desc cs n i) ∧ KeysIn b'.subs b'.all

theorem fanOut_spec (A : Accepted cs comps) {n : ℕ} (go : GoSpec cs n) (cp : CompObj)
    (os : List ConnObj) : ∀ (b : Branch), (∀ o ∈ os, o ∈ cs ∧ Ends cs n o ∧ desc cs n o ⊆ cs) →
    b.all ⊆ cs → (b.all ++ os.flatMap (fun o => o :: desc cs n o)).Nodup → KeysIn b.subs b.all →
    ∃ b', fanOut (propagate cs n) cp os b = .ok b' ∧
      b'.all.Perm (b.all ++ os.flatMap (fun o => o :: desc cs n o)) ∧ KeysIn b'.subs b'.all := by
  induction os with
  | nil => intro b _ _ _ hk; exact ⟨b, rfl, by simp, hk⟩
  | cons o os ih =>
    intro b ho hb hn hk
    obtain ⟨hoc, hoe, hod⟩ := ho o (by simp)
    rw [List.flatMap_cons] at hn
    have hn' : (o :: desc cs n o).Nodup := by
      rw [List.nodup_append] at hn
      exact (List.nodup_append.mp hn.2.1).1
    obtain ⟨sub, hs1, hs2, hs3⟩ := go o (Branch.start cp o) rfl hoc hoe
      (by rw [Branch.all_start]; simp [hoc]) hod (by rw [Branch.all_start]; exact hn')
      (by intro k hk; simp [Branch.start, Branch.subs, Dict.keys] at hk)
    rw [Branch.all_start] at hs2
    have hfresh : o.label ∉ b.subs.keys := by
      refine fresh_label A hk hb hoc ?_
      intro hm
      exact (List.nodup_append.mp hn).2.2 o hm o (by simp) rfl
    have hall := Branch.all_addSub b o sub hfresh
    have hp : (b.addSub o sub).all.Perm (b.all ++ (o :: desc cs n o)) := by
      rw [hall]; exact List.Perm.append_left _ hs2
    have hrest : ((b.addSub o sub).all ++ os.flatMap (fun o => o :: desc cs n o)).Perm
        (b.all ++ (o :: os.flatMap (fun o => o :: desc cs n o) ++ desc cs n o)) := by
      refine (List.Perm.append_right _ hp).trans ?_
      rw [List.append_assoc]
      refine List.Perm.append_left _ ?_
      rw [List.cons_append, List.cons_append]
      exact List.Perm.cons _ List.perm_append_comm
    have hrest' : ((b.addSub o sub).all ++ os.flatMap (fun o => o :: desc cs n o)).Perm
        (b.all ++ ((o :: desc cs n o) ++ os.flatMap (fun o => o :: desc cs n o))) := by
      rw [← List.append_assoc]
      exact List.Perm.append_right _ hp
    have hsub : (b.addSub o sub).all ⊆ cs := by
      intro c hc
      rw [hp.mem_iff, List.mem_append, List.mem_cons] at hc
      rcases hc with hc | rfl | hc
      · exact hb hc
      · exact hoc
      · exact hod hc
    have hkeys : KeysIn (b.addSub o sub).subs (b.addSub o sub).all := by
      show KeysIn (Dict.set b.subs o.label sub) _
      refine KeysIn.set o sub (hk.mono ?_) ?_
      · intro c hc; rw [hall]; exact List.mem_append_left _ hc
      · rw [hp.mem_iff]; simp
    obtain ⟨b', h1, h2, h3⟩ := ih (b.addSub o sub) (fun c hc => ho c (by simp [hc])) hsub
      (hrest'.nodup_iff.mpr hn) hkeys
    refine ⟨b', ?_, ?_, h3⟩
    · unfold fanOut; rw [hs1]; exact h1
    · rw [List.flatMap_cons]; exact h2.trans hrest'

theorem pushOn_spec {n : ℕ} (go : GoSpec cs n) (b : Branch) (o : ConnObj)
    (ho : o ∈ cs) (he : Ends cs n o) (hd : desc cs n o ⊆ cs) (hb : b.all ⊆ cs)
    (hn : (b.all ++ (o :: desc cs n o)).Nodup) (hk : KeysIn b.subs b.all) :
    ∃ b', propagate cs n (b.push o) = .ok b' ∧ b'.all.Perm (b.all ++ (o :: desc cs n o)) ∧
      KeysIn b'.subs b'.all := by
  have hp := Branch.all_push b o
  have hp' : ((b.push o).all ++ desc cs n o).Perm (b.all ++ (o :: desc cs n o)) := by
    refine (List.Perm.append_right _ hp).trans ?_
    simp
  obtain ⟨b', h1, h2, h3⟩ := go o (b.push o) (by simp [Branch.push, Branch.conns]) ho he
    (by intro c hc; rw [hp.mem_iff] at hc; simp at hc; rcases hc with hc | rfl; exact hb hc; exact ho)
    hd (hp'.nodup_iff.mpr hn)
    (by
      show KeysIn b.subs _
      refine hk.mono (fun c hc => ?_)
      rw [hp.mem_iff]; simp [hc])
  exact ⟨b', h1, h2.trans hp', h3⟩

theorem goSpec (A : Accepted cs comps) (n : ℕ) : GoSpec cs n := by
  induction n with
  | zero => intro i b _ _ he; exact absurd he (by simp [Ends])
  | succ n go =>
    intro i b hlast hi he hb hd hn hk
    have ht := (A.listed i hi).2
    have hmemS : ∀ o ∈ succs cs i, o ∈ cs ∧ Ends cs n o ∧ desc cs n o ⊆ cs := by
      intro o ho
      refine ⟨((A.mem_succs hi).mp ho).1, he o ho, fun c hc => hd ?_⟩
      simp only [desc, List.mem_flatMap, List.mem_cons]
      exact ⟨o, ho, Or.inr hc⟩
    unfold propagate
    rw [hlast]
    simp only
    have single : ∀ o, succs cs i = [o] → desc cs (n + 1) i = o :: desc cs n o := by
      intro o h; simp [desc, h]
    cases hp : i.target.pass with
    | stop =>
      have : desc cs (n + 1) i = [] := by simp [desc, succs, hp]
      simp only
      exact ⟨b, rfl, by rw [this]; simp, hk⟩
    | through =>
      obtain ⟨o, num, h1, h2, h3, h4, h5⟩ := A.through_paired hi hp
      have hS : succs cs i = [o] := by simp [succs, hp, h1, Except.toOption]
      obtain ⟨m1, m2, m3⟩ := hmemS o (by rw [hS]; simp)
      rw [single o hS] at hn ⊢
      simp only [h1]
      exact pushOn_spec go b o m1 m2 m3 hb hn hk
    | fanout =>
      have hS : succs cs i = outl cs i.target := by simp [succs, hp]
      simp only
      rw [hS] at hmemS
      have hD : desc cs (n + 1) i = (outl cs i.target).flatMap (fun o => o :: desc cs n o) := by
        simp only [desc, hS]
      rw [hD] at hn ⊢
      exact fanOut_spec A go _ _ b hmemS hb hn hk
    | drum =>
      simp only
      by_cases h2 : i.targetId = "in2"
      · rw [if_pos h2]
        have : desc cs (n + 1) i = [] := by simp [desc, succs, hp, h2]
        exact ⟨b, rfl, by rw [this]; simp, hk⟩
      · rw [if_neg h2]
        have hS : succs cs i = outl cs i.target := by simp [succs, hp, h2]
        obtain ⟨k, hk'⟩ := A.classes _ ht
        have hp' := hp
        rw [IsA.pass hk'] at hp'
        obtain rfl := (pass_cases k).2.1 hp'
        have hids : (outl cs i.target).map ConnObj.sourceId = ["out1", "out2"] := by
          obtain ⟨_, m, _, e2⟩ := hk'
          simp only [Cls.outlets] at e2
          rw [A.outl_ids ht (by rw [e2]; decide +kernel), e2]
        obtain ⟨o0, o1, ho⟩ : ∃ o0 o1, outl cs i.target = [o0, o1] := by
          have hl := congrArg List.length hids
          simp only [List.length_map, List.length_cons, List.length_nil] at hl
          match hx : outl cs i.target, hl with
          | [a, c], _ => exact ⟨a, c, rfl⟩
        rw [ho] at hS
        rw [ho]
        have hD : desc cs (n + 1) i = (o0 :: desc cs n o0) ++ (o1 :: desc cs n o1) := by
          simp [desc, hS]
        rw [hD] at hn ⊢
        obtain ⟨a1, a2, a3⟩ := hmemS o0 (by rw [hS]; simp)
        obtain ⟨c1, c2, c3⟩ := hmemS o1 (by rw [hS]; simp)
        have hn0 : (o0 :: desc cs n o0).Nodup := by
          rw [List.nodup_append] at hn
          exact (List.nodup_append.mp hn.2.1).1
        obtain ⟨sub, hs1, hs2, hs3⟩ := go o0 (Branch.start i.target o0) rfl a1 a2
          (by rw [Branch.all_start]; simp [a1]) a3 (by rw [Branch.all_start]; exact hn0)
          (by intro k hk; simp [Branch.start, Branch.subs, Dict.keys] at hk)
        rw [Branch.all_start] at hs2
        simp only [List.getElem?_cons_zero, List.getElem?_cons_succ, hs1]
        have hfresh : o0.label ∉ b.subs.keys := by
          refine fresh_label A hk hb a1 ?_
          intro hm
          exact (List.nodup_append.mp hn).2.2 o0 hm o0 (by simp) rfl
        have hall := Branch.all_addSub b o0 sub hfresh
        have hp0 : (b.addSub o0 sub).all.Perm (b.all ++ (o0 :: desc cs n o0)) := by
          rw [hall]; exact List.Perm.append_left _ hs2
        have hsub : (b.addSub o0 sub).all ⊆ cs := by
          intro c hc
          rw [hp0.mem_iff, List.mem_append, List.mem_cons] at hc
          rcases hc with hc | rfl | hc
          · exact hb hc
          · exact a1
          · exact a3 hc
        have hkeys : KeysIn (b.addSub o0 sub).subs (b.addSub o0 sub).all := by
          show KeysIn (Dict.set b.subs o0.label sub) _
          refine KeysIn.set o0 sub (hk.mono ?_) ?_
          · intro c hc; rw [hall]; exact List.mem_append_left _ hc
          · rw [hp0.mem_iff]; simp
        have hpr : ((b.addSub o0 sub).all ++ (o1 :: desc cs n o1)).Perm
            (b.all ++ ((o0 :: desc cs n o0) ++ (o1 :: desc cs n o1))) := by
          rw [← List.append_assoc]; exact List.Perm.append_right _ hp0
        split
        · obtain ⟨b', e1, e2, e3⟩ := pushOn_spec go (b.addSub o0 sub) o1 c1 c2 c3 hsub
            (hpr.nodup_iff.mpr hn) hkeys
          exact ⟨b', e1, e2.trans hpr, e3⟩
        · obtain ⟨b', e1, e2, e3⟩ := fanOut_spec A go i.target [o1] (b.addSub o0 sub)
            (by intro o ho; simp at ho; subst ho; exact ⟨c1, c2, c3⟩) hsub
            (by simpa using (hpr.nodup_iff.mpr hn)) hkeys
          refine ⟨b', e1, ?_, e3⟩
          have e2' : b'.all.Perm ((b.addSub o0 sub).all ++ (o1 :: desc cs n o1)) := by simpa using e2
          exact e2'.trans hpr
    | engine =>
      simp only
      by_cases h2 : i ∈ (inl cs i.target).drop 2
      · rw [if_pos h2]
        have : desc cs (n + 1) i = [] := by simp [desc, succs, hp, h2]
        exact ⟨b, rfl, by rw [this]; simp, hk⟩
      · rw [if_neg h2]
        have hS : succs cs i = (paired cs i).toOption.toList := by simp [succs, hp, h2]
        obtain ⟨k, hk'⟩ := A.classes _ ht
        have hp' := hp
        rw [IsA.pass hk'] at hp'
        obtain rfl := (pass_cases k).2.2.1 hp'
        obtain ⟨e1, e2⟩ := A.engine_ids ht hk'
        have him := mem_inl.mpr ⟨hi, rfl⟩
        obtain ⟨o, hpo⟩ : ∃ o, paired cs i = .ok o := by
          have hlt := List.idxOf_lt_length_iff.mpr him
          have hl1 := congrArg List.length e1
          have hl2 := congrArg List.length e2
          simp only [List.length_map, List.length_cons, List.length_nil] at hl1 hl2
          have : (inl cs i.target).idxOf i < 2 := by
            by_contra hge
            apply h2
            rw [List.mem_iff_getElem?]
            refine ⟨(inl cs i.target).idxOf i - 2, ?_⟩
            rw [List.getElem?_drop, show 2 + ((inl cs i.target).idxOf i - 2) = (inl cs i.target).idxOf i by omega,
              List.getElem?_eq_getElem hlt, List.getElem_idxOf]
          have h3 : (inl cs i.target).idxOf i < (outl cs i.target).length := by omega
          exact ⟨_, A.paired_at hi _ (by rw [List.getElem?_eq_getElem hlt, List.getElem_idxOf])
            (List.getElem?_eq_getElem h3)⟩
        rw [hpo] at hS ⊢
        have hS' : succs cs i = [o] := by rw [hS]; rfl
        obtain ⟨m1, m2, m3⟩ := hmemS o (by rw [hS']; simp)
        rw [single o hS'] at hn ⊢
        exact pushOn_spec go b o m1 m2 m3 hb hn hk
    | reactor =>
      simp only
      by_cases h2 : (inl cs i.target)[0]? = some i
      · rw [if_pos h2]
        obtain ⟨m, m', e1, e2, n1, n2, z1, z2⟩ := A.reactor_ids ht hp
        obtain ⟨o, ho', hox⟩ := exists_at e2 z2
        have hpo := A.paired_at hi 0 h2 ho'
        have hS' : succs cs i = [o] := by simp [succs, hp, h2, hpo, Except.toOption]
        obtain ⟨m1, m2, m3⟩ := hmemS o (by rw [hS']; simp)
        rw [single o hS'] at hn ⊢
        rw [hpo]
        exact pushOn_spec go b o m1 m2 m3 hb hn hk
      · rw [if_neg h2]
        have : desc cs (n + 1) i = [] := by simp [desc, succs, hp, h2]
        exact ⟨b, rfl, by rw [this]; simp, hk⟩

/-! ### all start components -/

theorem outl_of_ids3 {cp : CompObj} {x y z : String}
    (h : (outl cs cp).map ConnObj.sourceId = [x, y, z]) :
    ∃ a b c, outl cs cp = [a, b, c] ∧ a.sourceId = x ∧ b.sourceId = y ∧ c.sourceId = z := by
  match hx : outl cs cp, h with
  | [a, b, c], h => simp at h; exact ⟨a, b, c, rfl, h.1, h.2.1, h.2.2⟩

theorem outl_of_ids2 {cp : CompObj} {x y : String}
    (h : (outl cs cp).map ConnObj.sourceId = [x, y]) :
    ∃ a b, outl cs cp = [a, b] ∧ a.sourceId = x ∧ b.sourceId = y := by
  match hx : outl cs cp, h with
  | [a, b], h => simp at h; exact ⟨a, b, rfl, h.1, h.2⟩

theorem mem_starts (A : Accepted cs comps) {cp : CompObj} (h : cp ∈ comps) (s : ConnObj) :
    s ∈ cp.starts cs ↔ s ∈ cs ∧ s.source = cp ∧ BranchStart s := by
  obtain ⟨k, hk⟩ := A.classes _ h
  have hcard := checkComponents_ok A.compsOk cp h
  have hlen : (outl cs cp).length = cp.outlets.length := by
    rw [← hcard.1]; exact List.length_insertionSort _ _
  have hS : ∀ P : Prop, (s.source = cp → (BranchStart s ↔ P)) →
      (s ∈ cp.starts cs ↔ s ∈ outl cs cp ∧ P) →
      (s ∈ cp.starts cs ↔ s ∈ cs ∧ s.source = cp ∧ BranchStart s) := by
    intro P h1 h2
    rw [h2, mem_outl, and_assoc]
    exact and_congr_right (fun _ => and_congr_right (fun h => (h1 h).symm))
  have hB : ∀ P : Prop, (match some k with
      | some Cls.source => True | some .cycleCloser => True | some .merge => True
      | some .separator => True | some .combustionChamber => True
      | some .diabaticCombustionChamber => True
      | some .combustionEngine => s.sourceId = "out3"
      | some .fuelCell => s.sourceId = "out2"
      | some .waterElectrolyzer => s.sourceId = "out2" ∨ s.sourceId = "out3"
      | _ => False) = P → (s.source = cp → (BranchStart s ↔ P)) := by
    intro P hP hs
    unfold BranchStart
    rw [hs, hk.1, ← hP]
    cases k <;> exact Iff.rfl
  have one : cp.outlets.length = 1 → (s ∈ (outl cs cp).take 1 ↔ s ∈ outl cs cp ∧ True) := by
    intro h1
    rw [List.take_of_length_le (by omega)]; simp
  have hst : ∀ f, k.startPositions = some f → cp.starts cs = f (outl cs cp) := by
    intro f hf; unfold CompObj.starts; rw [hk.1]; simp only [hf]
  have hst' : k.startPositions = none → cp.starts cs = [] := by
    intro hf; unfold CompObj.starts; rw [hk.1]; simp only [hf]
  have hout : ∃ n, cp.outlets = k.outlets n := ⟨_, hk.2.choose_spec.2⟩
  have n12 : ("out1" : String) ≠ "out2" := by decide +kernel
  have n13 : ("out1" : String) ≠ "out3" := by decide +kernel
  have n23 : ("out2" : String) ≠ "out3" := by decide +kernel
  cases k
  case combustionEngine =>
    refine hS _ (hB _ rfl) ?_
    rw [hst _ rfl]
    obtain ⟨a, b, c, e, ha, hb, hc⟩ := outl_of_ids3 (A.engine_ids h hk).2
    rw [e]
    simp only [List.drop_succ_cons, List.drop_zero, List.take_succ_cons, List.take_zero,
      List.mem_cons, List.not_mem_nil, or_false]
    constructor
    · rintro rfl; exact ⟨Or.inr (Or.inr rfl), hc⟩
    · rintro ⟨rfl | rfl | rfl, h⟩
      · exact absurd (ha.symm.trans h) n13
      · exact absurd (hb.symm.trans h) n23
      · rfl
  case fuelCell =>
    refine hS _ (hB _ rfl) ?_
    rw [hst _ rfl]
    obtain ⟨a, b, e, ha, hb⟩ := outl_of_ids2 (A.fuelCell_ids h hk).2
    rw [e]
    simp only [List.drop_succ_cons, List.drop_zero, List.take_succ_cons, List.take_zero,
      List.mem_cons, List.not_mem_nil, or_false]
    constructor
    · rintro rfl; exact ⟨Or.inr rfl, hb⟩
    · rintro ⟨rfl | rfl, h⟩
      · exact absurd (ha.symm.trans h) n12
      · rfl
  case waterElectrolyzer =>
    refine hS _ (hB _ rfl) ?_
    rw [hst _ rfl]
    obtain ⟨a, b, c, e, ha, hb, hc⟩ := outl_of_ids3 (A.electrolyzer_ids h hk).2
    rw [e]
    simp only [List.drop_succ_cons, List.drop_zero, List.mem_cons, List.not_mem_nil, or_false]
    constructor
    · rintro (rfl | rfl)
      · exact ⟨Or.inr (Or.inl rfl), Or.inl hb⟩
      · exact ⟨Or.inr (Or.inr rfl), Or.inr hc⟩
    · rintro ⟨rfl | rfl | rfl, h⟩
      · rcases h with h | h
        · exact absurd (ha.symm.trans h) n12
        · exact absurd (ha.symm.trans h) n13
      · exact Or.inl rfl
      · exact Or.inr rfl
  case separator =>
    refine hS _ (hB _ rfl) ?_
    rw [hst _ rfl]; simp
  all_goals first
    | (refine hS _ (hB _ rfl) ?_
       rw [hst _ rfl]
       apply one
       obtain ⟨n, hn⟩ := hout
       rw [hn]; rfl)
    | (refine hS _ (hB _ rfl) ?_
       rw [hst' rfl]; simp)

theorem starts_nodup (A : Accepted cs comps) (cp : CompObj) : (cp.starts cs).Nodup := by
  unfold CompObj.starts
  have hn := A.outl_nodup cp
  split
  · rename_i k _
    cases k <;> simp only [Cls.startPositions] <;> first
      | exact List.nodup_nil
      | exact hn
      | exact hn.sublist (List.take_sublist _ _)
      | exact hn.sublist (List.drop_sublist _ _)
      | exact hn.sublist ((List.take_sublist _ _).trans (List.drop_sublist _ _))
  · exact List.nodup_nil

theorem isBranchSource_starts {cp : CompObj} (h : cp.isBranchSource = false) : cp.starts cs = [] := by
  unfold CompObj.isBranchSource at h
  unfold CompObj.starts
  split
  · rename_i k hk
    rw [hk] at h
    simp only at h
    cases hf : k.startPositions with
    | none => rfl
    | some f => simp [hf] at h
  · rfl

theorem startBranches_spec (A : Accepted cs comps) (n : ℕ) (cp : CompObj) (os : List ConnObj) :
    ∀ (d : Dict String Branch), (∀ o ∈ os, o ∈ cs ∧ Ends cs n o ∧ desc cs n o ⊆ cs) →
    allOf d ⊆ cs → (allOf d ++ os.flatMap (fun o => o :: desc cs n o)).Nodup → KeysIn d (allOf d) →
    ∃ d', startBranches cs n cp os d = .ok d' ∧
      (allOf d').Perm (allOf d ++ os.flatMap (fun o => o :: desc cs n o)) ∧ KeysIn d' (allOf d') := by
  have go := goSpec A n
  induction os with
  | nil => intro d _ _ _ hk; exact ⟨d, rfl, by simp, hk⟩
  | cons o os ih =>
    intro d ho hb hn hk
    obtain ⟨hoc, hoe, hod⟩ := ho o (by simp)
    rw [List.flatMap_cons] at hn
    have hn' : (o :: desc cs n o).Nodup := by
      rw [List.nodup_append] at hn
      exact (List.nodup_append.mp hn.2.1).1
    obtain ⟨sub, hs1, hs2, hs3⟩ := go o (Branch.start cp o) rfl hoc hoe
      (by rw [Branch.all_start]; simp [hoc]) hod (by rw [Branch.all_start]; exact hn')
      (by intro k hk; simp [Branch.start, Branch.subs, Dict.keys] at hk)
    rw [Branch.all_start] at hs2
    have hfresh : o.label ∉ d.keys := by
      refine fresh_label A hk hb hoc ?_
      intro hm
      exact (List.nodup_append.mp hn).2.2 o hm o (by simp) rfl
    have hall := allOf_set_fresh d o.label sub hfresh
    have hp : (allOf (Dict.set d o.label sub)).Perm (allOf d ++ (o :: desc cs n o)) := by
      rw [hall]; exact List.Perm.append_left _ hs2
    have hrest : (allOf (Dict.set d o.label sub) ++ os.flatMap (fun o => o :: desc cs n o)).Perm
        (allOf d ++ ((o :: desc cs n o) ++ os.flatMap (fun o => o :: desc cs n o))) := by
      rw [← List.append_assoc]
      exact List.Perm.append_right _ hp
    have hsub : allOf (Dict.set d o.label sub) ⊆ cs := by
      intro c hc
      rw [hp.mem_iff, List.mem_append, List.mem_cons] at hc
      rcases hc with hc | rfl | hc
      · exact hb hc
      · exact hoc
      · exact hod hc
    have hkeys : KeysIn (Dict.set d o.label sub) (allOf (Dict.set d o.label sub)) := by
      refine KeysIn.set o sub (hk.mono ?_) ?_
      · intro c hc; rw [hall]; exact List.mem_append_left _ hc
      · rw [hp.mem_iff]; simp
    obtain ⟨d', h1, h2, h3⟩ := ih (Dict.set d o.label sub) (fun c hc => ho c (by simp [hc])) hsub
      (hrest.nodup_iff.mpr hn) hkeys
    refine ⟨d', ?_, ?_, h3⟩
    · unfold startBranches; rw [hs1]; exact h1
    · rw [List.flatMap_cons]; exact h2.trans hrest

theorem allBranches_spec (A : Accepted cs comps) (n : ℕ) (cps : List CompObj) :
    ∀ (d : Dict String Branch),
    (∀ cp ∈ cps, ∀ o ∈ cp.starts cs, o ∈ cs ∧ Ends cs n o ∧ desc cs n o ⊆ cs) →
    allOf d ⊆ cs →
    (allOf d ++ (cps.flatMap (fun cp => cp.starts cs)).flatMap (fun o => o :: desc cs n o)).Nodup →
    KeysIn d (allOf d) →
    ∃ d', allBranches cs n cps d = .ok d' ∧
      (allOf d').Perm (allOf d ++
        (cps.flatMap (fun cp => cp.starts cs)).flatMap (fun o => o :: desc cs n o)) ∧
      KeysIn d' (allOf d') := by
  induction cps with
  | nil => intro d _ _ _ hk; exact ⟨d, rfl, by simp, hk⟩
  | cons cp cps ih =>
    intro d ho hb hn hk
    rw [List.flatMap_cons, List.flatMap_append, ← List.append_assoc] at hn
    have hn1 := (List.nodup_append.mp hn).1
    obtain ⟨d1, e1, e2, e3⟩ := startBranches_spec A n cp (cp.starts cs) d
      (ho cp (by simp)) hb hn1 hk
    have hp : (allOf d1 ++ (cps.flatMap (fun cp => cp.starts cs)).flatMap (fun o => o :: desc cs n o)).Perm
        ((allOf d ++ (cp.starts cs).flatMap (fun o => o :: desc cs n o)) ++
          (cps.flatMap (fun cp => cp.starts cs)).flatMap (fun o => o :: desc cs n o)) :=
      List.Perm.append_right _ e2
    have hsub : allOf d1 ⊆ cs := by
      intro c hc
      rw [e2.mem_iff, List.mem_append, List.mem_flatMap] at hc
      rcases hc with hc | ⟨o, ho', hc⟩
      · exact hb hc
      · obtain ⟨a, _, b⟩ := ho cp (by simp) o ho'
        rcases List.mem_cons.mp hc with rfl | hc
        · exact a
        · exact b hc
    obtain ⟨d', h1, h2, h3⟩ := ih d1 (fun cp' h => ho cp' (by simp [h])) hsub (hp.nodup_iff.mpr hn) e3
    refine ⟨d', ?_, ?_, h3⟩
    · unfold allBranches; rw [e1]; exact h1
    · rw [List.flatMap_cons, List.flatMap_append, ← List.append_assoc]; exact h2.trans hp

theorem flatMap_filter_starts (cps : List CompObj) :
    (cps.filter CompObj.isBranchSource).flatMap (fun cp => cp.starts cs)
      = cps.flatMap (fun cp => cp.starts cs) := by
  induction cps with
  | nil => rfl
  | cons cp cps ih =>
    rw [List.filter_cons]
    split
    · rw [List.flatMap_cons, List.flatMap_cons, ih]
    · rename_i h
      rw [List.flatMap_cons, isBranchSource_starts (by simpa using h), ih]; rfl

/-- C15: for every accepted network with at least one branch source the branch search
terminates (recursion depth at most the number of connections), collects every
connection at most once over all branches and subbranches, and collects exactly the
connections downstream of a branch start. -/
theorem C15_branch_search (A : Accepted cs comps) (hsrc : ∃ cp ∈ comps, cp.isBranchSource = true)
    (fuel : ℕ) (hf : cs.length ≤ fuel) :
    ∃ branches, createBranches cs comps fuel = .ok branches ∧
      ((flatAll branches).flatMap Prod.fst).Nodup ∧
      ∀ c, c ∈ (flatAll branches).flatMap Prod.fst ↔ Downstream cs c := by
  have hstart : ∀ cp ∈ comps, ∀ o ∈ cp.starts cs, o ∈ cs ∧ o.source = cp ∧ BranchStart o :=
    fun cp hcp o ho => (mem_starts A hcp o).mp ho
  have hends : ∀ o, o ∈ cs → BranchStart o → Ends cs fuel o := fun o ho hb =>
    ends_of_below A hb ho fuel (Below.zero) (by omega)
  have hdesc : ∀ o, o ∈ cs → desc cs fuel o ⊆ cs := by
    intro o ho c hc
    obtain ⟨k, _, hb⟩ := mem_desc A ho hc
    exact hb.mem ho
  have hsn : (comps.flatMap (fun cp => cp.starts cs)).Nodup := by
    rw [List.nodup_flatMap]
    refine ⟨fun cp _ => starts_nodup A cp, A.distinct.imp_of_mem (fun {a b} ha hb hne => ?_)⟩
    intro e hea heb
    exact hne ((hstart a ha e hea).2.1.symm.trans (hstart b hb e heb).2.1)
  have hms : ∀ o, o ∈ comps.flatMap (fun cp => cp.starts cs) ↔ o ∈ cs ∧ BranchStart o := by
    intro o
    rw [List.mem_flatMap]
    constructor
    · rintro ⟨cp, hcp, ho⟩; exact ⟨(hstart cp hcp o ho).1, (hstart cp hcp o ho).2.2⟩
    · rintro ⟨h1, h2⟩
      exact ⟨o.source, (A.listed o h1).1, (mem_starts A (A.listed o h1).1 o).mpr ⟨h1, rfl, h2⟩⟩
  have hnod : ((comps.flatMap (fun cp => cp.starts cs)).flatMap (fun o => o :: desc cs fuel o)).Nodup := by
    rw [List.nodup_flatMap]
    constructor
    · intro o ho
      obtain ⟨h1, h2⟩ := (hms o).mp ho
      exact desc_nodup A h2 h1 fuel Below.zero
    · refine hsn.imp_of_mem (fun {a b} ha hb hne => ?_)
      intro e hea heb
      have hel : ∀ s, s ∈ cs → e ∈ s :: desc cs fuel s → ∃ j, Below cs s j e := by
        intro s hs he
        rcases List.mem_cons.mp he with rfl | he
        · exact ⟨0, Below.zero⟩
        · obtain ⟨j, _, hj⟩ := mem_desc A hs he; exact ⟨j, hj⟩
      obtain ⟨a1, a2⟩ := (hms a).mp ha
      obtain ⟨b1, b2⟩ := (hms b).mp hb
      obtain ⟨ja, hja⟩ := hel a a1 hea
      obtain ⟨jb, hjb⟩ := hel b b1 heb
      exact hne (Below.unique A a2 b2 hja hjb).2
  have hspec := allBranches_spec A fuel (comps.filter CompObj.isBranchSource) []
    (by
      intro cp hcp o ho
      obtain ⟨h1, h2, h3⟩ := hstart cp (List.mem_filter.mp hcp).1 o ho
      exact ⟨h1, hends o h1 h3, hdesc o h1⟩)
    (by simp [allOf, flatAll])
    (by rw [flatMap_filter_starts]; simpa [allOf, flatAll] using hnod)
    (by intro k hk; simp [Dict.keys] at hk)
  rw [flatMap_filter_starts] at hspec
  obtain ⟨d, h1, h2, _⟩ := hspec
  have h2' : ((flatAll d).flatMap Prod.fst).Perm
      ((comps.flatMap (fun cp => cp.starts cs)).flatMap (fun o => o :: desc cs fuel o)) := by
    simpa [allOf, flatAll] using h2
  refine ⟨d, ?_, h2'.nodup_iff.mpr hnod, ?_⟩
  · unfold createBranches
    simp only
    rw [if_neg]
    · exact h1
    · intro hc
      obtain ⟨cp, hcp, hb⟩ := hsrc
      have : cp ∈ comps.filter CompObj.isBranchSource := List.mem_filter.mpr ⟨hcp, hb⟩
      rw [hc] at this; simp at this
  · intro c
    rw [h2'.mem_iff, List.mem_flatMap]
    constructor
    · rintro ⟨s, hs, hc⟩
      obtain ⟨s1, s2⟩ := (hms s).mp hs
      rcases List.mem_cons.mp hc with rfl | hc
      · exact Downstream.start s1 s2
      · obtain ⟨k, _, hb⟩ := mem_desc A s1 hc
        exact hb.downstream s1 s2
    · intro hd
      have : ∃ s, s ∈ cs ∧ BranchStart s ∧ ∃ k, Below cs s k c := by
        induction hd with
        | start h1 h2 => exact ⟨_, h1, h2, 0, Below.zero⟩
        | next hd ho hc ih =>
          obtain ⟨s, h1, h2, k, hb⟩ := ih
          exact ⟨s, h1, h2, k + 1, Below.succ hb (hb.mem h1) ho hc⟩
      obtain ⟨s, s1, s2, k, hb⟩ := this
      refine ⟨s, (hms s).mpr ⟨s1, s2⟩, ?_⟩
      cases k with
      | zero => cases hb; simp
      | succ k => exact List.mem_cons_of_mem _ (desc_complete A s1 (hends s s1 s2) hb)

/-- C15: without a branch source the network is rejected. -/
theorem C15_no_source_rejected (cs : List ConnObj) (comps : List CompObj) (fuel : ℕ)
    (h : ∀ cp ∈ comps, cp.isBranchSource = false) :
    createBranches cs comps fuel = .error .networkError := by
  unfold createBranches
  simp only
  rw [if_pos]
  rw [List.filter_eq_nil_iff]
  intro cp hcp; simp [h cp hcp]

end search

/-! ### examples -/

/-- a closed loop of two pipes next to a source feeding a sink -/
def loopA : CompObj := ⟨10, "loop pipe 1", "Pipe", ["in1"], ["out1"]⟩
def loopB : CompObj := ⟨11, "loop pipe 2", "Pipe", ["in1"], ["out1"]⟩
def loopConns : List ConnObj :=
  [exC1, exC2, ⟨2, "3", loopA, "out1", loopB, "in1"⟩, ⟨3, "4", loopB, "out1", loopA, "in1"⟩]
def loopComps : List CompObj := [exSrc, exPipe, exSnk, loopA, loopB]

/-- The network is accepted ... -/
theorem loop_accepted : Accepted loopConns loopComps where
  conns := by decide +kernel
  compsOk := by decide +kernel
  declared := by decide +kernel
  listed := by decide +kernel
  classes := by
    intro cp hcp
    simp only [loopComps, List.mem_cons, List.not_mem_nil, or_false] at hcp
    rcases hcp with rfl | rfl | rfl | rfl | rfl
    · exact ⟨.source, rfl, 0, rfl, rfl⟩
    · exact ⟨.pipe, rfl, 0, rfl, rfl⟩
    · exact ⟨.sink, rfl, 0, rfl, rfl⟩
    · exact ⟨.pipe, rfl, 0, rfl, rfl⟩
    · exact ⟨.pipe, rfl, 0, rfl, rfl⟩
  labels := by decide +kernel
  distinct := by decide +kernel

/-- ... although the connections of the loop without cycle closer are in no branch: they
take no part in the mass flow presolve. -/
theorem C15_loop_without_closer_not_collected :
    ∃ branches, createBranches loopConns loopComps 4 = .ok branches ∧
      (flatAll branches).flatMap Prod.fst = [exC1, exC2] :=
  ⟨_, rfl, by decide +kernel⟩

/-- a drum with evaporator loop: feed -> drum -> sink, drum -> pipe -> drum -/
def exDrum : CompObj := ⟨20, "drum", "Drum", ["in1", "in2"], ["out1", "out2"]⟩
def exEva : CompObj := ⟨21, "evaporator", "SimpleHeatExchanger", ["in1"], ["out1"]⟩
def drumConns : List ConnObj :=
  [⟨0, "feed", exSrc, "out1", exDrum, "in1"⟩, ⟨1, "down", exDrum, "out1", exEva, "in1"⟩,
   ⟨2, "up", exEva, "out1", exDrum, "in2"⟩, ⟨3, "steam", exDrum, "out2", exSnk, "in1"⟩]
def drumComps : List CompObj := [exSrc, exDrum, exEva, exSnk]

-- non-vacuity: the evaporator loop is a subbranch, the steam outlet continues the feed
example : Accepted drumConns drumComps ∧
    ∃ branches, createBranches drumConns drumComps 4 = .ok branches ∧
      (flatAll branches).map (fun e => e.1.map ConnObj.label) = [["feed", "steam"], ["down", "up"]] := by
  refine ⟨⟨by decide +kernel, by decide +kernel, by decide +kernel, by decide +kernel, ?_,
    by decide +kernel, by decide +kernel⟩, _, rfl, by decide +kernel⟩
  intro cp hcp
  simp only [drumComps, List.mem_cons, List.not_mem_nil, or_false] at hcp
  rcases hcp with rfl | rfl | rfl | rfl
  · exact ⟨.source, rfl, 0, rfl, rfl⟩
  · exact ⟨.drum, rfl, 0, rfl, rfl⟩
  · exact ⟨.simpleHeatExchanger, rfl, 0, rfl, rfl⟩
  · exact ⟨.sink, rfl, 0, rfl, rfl⟩

end Tespy
