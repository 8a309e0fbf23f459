import Mathlib.Data.List.Nodup
import Mathlib.Data.List.Pairwise
import Mathlib.Logic.Function.Basic
import Mathlib.Tactic.Ring
import Verif.Model.Presolve
/-
C17, C18, C19: presolve of the mass flow branches and its reset.
-/
namespace Tespy
namespace MHeap
variable {K : Type}

/-- the user's specification flag at connection `c` -/
def specified (H : MHeap K) (c : ℕ) : Bool := (H.box (H.ref c)).isSet

theorem mapTo_box (main : ℕ) (cs : List ℕ) (H : MHeap K) : (mapTo main cs H).box = H.box := by
  induction cs generalizing H with
  | nil => rfl
  | cons c cs ih => rw [mapTo, ih]

theorem mapTo_ref (main : ℕ) (cs : List ℕ) (H : MHeap K) (c : ℕ) :
    (mapTo main cs H).ref c = if c ∈ cs then H.ref main else H.ref c := by
  induction cs generalizing H with
  | nil => simp [mapTo]
  | cons d cs ih =>
    rw [mapTo, ih]
    simp only [Function.update_apply, List.mem_cons]
    by_cases h1 : c ∈ cs
    · simp only [h1, if_true, or_true]
      by_cases h2 : main = d <;> simp [h2]
    · by_cases h2 : c = d <;> simp [h1, h2]

theorem mapTo_tmp_of_not_mem (main : ℕ) (cs : List ℕ) (H : MHeap K) (c : ℕ) (hc : c ∉ cs) :
    (mapTo main cs H).tmp c = H.tmp c := by
  induction cs generalizing H with
  | nil => rfl
  | cons d cs ih =>
    simp only [List.mem_cons, not_or] at hc
    rw [mapTo, ih _ hc.2]
    simp [hc.1]

theorem mapTo_tmp_of_mem (main : ℕ) (cs : List ℕ) (H : MHeap K) (hn : cs.Nodup) (c : ℕ) (hc : c ∈ cs) :
    (mapTo main cs H).tmp c = some (H.ref c) := by
  induction cs generalizing H with
  | nil => simp at hc
  | cons d cs ih =>
    rw [List.nodup_cons] at hn
    rw [mapTo]
    by_cases h : c = d
    · subst h
      rw [mapTo_tmp_of_not_mem _ _ _ _ hn.1]; simp
    · have hc' : c ∈ cs := by simpa [h] using hc
      rw [ih _ hn.2 hc']
      simp [h]

/-- a reference from the branch into the branch -/
def SelfRef (mref : ℕ → Option ℕ) (branch : List ℕ) : Prop :=
  ∃ c ∈ branch, ∃ d ∈ branch, mref c = some d

theorem scan_error (H : MHeap K) (mref : ℕ → Option ℕ) (branch cs : List ℕ) (n : ℕ) (m : Option ℕ)
    (h : ∃ c ∈ cs, ∃ d ∈ branch, mref c = some d) : H.scan mref branch cs n m = .error .networkError := by
  induction cs generalizing n m with
  | nil => simp at h
  | cons c cs ih =>
    unfold scan
    cases hm : mref c with
    | none =>
      obtain ⟨c', hc', d, hd, e⟩ := h
      rcases List.mem_cons.mp hc' with rfl | hc'
      · rw [hm] at e; simp at e
      · exact ih _ _ ⟨c', hc', d, hd, e⟩
    | some d' =>
      simp only
      by_cases hd' : d' ∈ branch
      · rw [if_pos hd']
      · rw [if_neg hd']
        obtain ⟨c', hc', d, hd, e⟩ := h
        rcases List.mem_cons.mp hc' with rfl | hc'
        · rw [hm] at e; injection e with e; subst e; exact absurd hd hd'
        · exact ih _ _ ⟨c', hc', d, hd, e⟩

theorem scan_ok (H : MHeap K) (mref : ℕ → Option ℕ) (branch cs : List ℕ) (n : ℕ) (m : Option ℕ)
    (h : ¬ ∃ c ∈ cs, ∃ d ∈ branch, mref c = some d) :
    H.scan mref branch cs n m = .ok (n + (cs.filter H.specified).length,
      match (cs.filter H.specified).getLast? with | some x => some x | none => m) := by
  induction cs generalizing n m with
  | nil => simp [scan]
  | cons c cs ih =>
    have h' : ¬ ∃ c ∈ cs, ∃ d ∈ branch, mref c = some d :=
      fun ⟨c', hc', r⟩ => h ⟨c', List.mem_cons_of_mem _ hc', r⟩
    unfold scan
    have step : H.scan mref branch cs (n + ((H.box (H.ref c)).isSet).toNat)
        (if (H.box (H.ref c)).isSet then some c else m)
        = .ok (n + ((c :: cs).filter H.specified).length,
          match ((c :: cs).filter H.specified).getLast? with | some x => some x | none => m) := by
      rw [ih _ _ h', List.filter_cons]
      by_cases hs : (H.box (H.ref c)).isSet
      · have hs' : H.specified c = true := hs
        rw [if_pos hs', hs]
        simp only [Bool.toNat_true, List.length_cons, if_true]
        congr 1
        refine Prod.ext (by simp; ring) ?_
        simp only [List.getLast?_cons]
        cases (cs.filter H.specified).getLast? <;> rfl
      · have hs' : ¬ H.specified c = true := hs
        rw [if_neg hs']
        simp [hs]
    cases hm : mref c with
    | none => exact step
    | some d =>
      simp only
      rw [if_neg (fun hd => h ⟨c, by simp, d, hd, hm⟩)]
      exact step

/-- the branch is not admissible: two values given or a reference into itself -/
def BadBranch (H : MHeap K) (mref : ℕ → Option ℕ) (b : List ℕ) : Prop :=
  SelfRef mref b ∨ ∃ c ∈ b, ∃ d ∈ b, c ≠ d ∧ H.specified c = true ∧ H.specified d = true

/-- what the presolve of one admissible branch does -/
theorem presolveBranch_good (H : MHeap K) (mref : ℕ → Option ℕ) (b : List ℕ) (hn : b.Nodup)
    (hne : b ≠ []) (hg : ¬ H.BadBranch mref b) :
    ∃ o cs, o ∈ b ∧ cs.Nodup ∧ cs ⊆ b ∧ (∀ c ∈ b, c ∉ cs → c = o) ∧
      (∀ c ∈ b, H.specified c = true → c = o) ∧
      ((∀ c ∈ b, H.specified c = false) → b.head? = some o) ∧
      H.presolveBranch mref b = (mapTo o cs H, none) := by
  have hg1 : ¬ SelfRef mref b := fun h => hg (Or.inl h)
  have hg2 : ∀ c ∈ b, ∀ d ∈ b, H.specified c = true → H.specified d = true → c = d := by
    intro c hc d hd h1 h2
    by_contra hne
    exact hg (Or.inr ⟨c, hc, d, hd, hne, h1, h2⟩)
  unfold presolveBranch
  rw [scan_ok H mref b b 0 none hg1]
  simp only [Nat.zero_add]
  have hlen : (b.filter H.specified).length ≤ 1 := by
    match hf : b.filter H.specified with
    | [] => simp
    | [x] => simp
    | x :: y :: r =>
      exfalso
      have hx : x ∈ b.filter H.specified := by rw [hf]; simp
      have hy : y ∈ b.filter H.specified := by rw [hf]; simp
      rw [List.mem_filter] at hx hy
      have hxy := hg2 x hx.1 y hy.1 hx.2 hy.2
      have := hn.filter H.specified
      rw [hf, hxy] at this
      simp at this
  match hf : b.filter H.specified, hlen with
  | [], _ =>
    have hnone : ∀ c ∈ b, H.specified c = false := by
      intro c hc
      have := List.filter_eq_nil_iff.mp hf c hc
      simpa using this
    match b, hne with
    | m :: rest, _ =>
      rw [List.nodup_cons] at hn
      refine ⟨m, rest, by simp, hn.2, List.subset_cons_self _ _, ?_, ?_, fun _ => rfl, ?_⟩
      · intro c hc hnc
        rcases List.mem_cons.mp hc with rfl | hc
        · rfl
        · exact absurd hc hnc
      · intro c hc hs; rw [hnone c hc] at hs; simp at hs
      · simp
  | [x], _ =>
    have hx : x ∈ b.filter H.specified := by rw [hf]; simp
    rw [List.mem_filter] at hx
    refine ⟨x, b, hx.1, hn, List.Subset.refl _, fun c hc h => absurd hc h, ?_, ?_, ?_⟩
    · intro c hc hs; exact hg2 c hc x hx.1 hs hx.2
    · intro h; rw [h x hx.1] at hx; simp at hx
    · simp

theorem presolveBranch_bad (H : MHeap K) (mref : ℕ → Option ℕ) (b : List ℕ)
    (hg : H.BadBranch mref b) : H.presolveBranch mref b = (H, some .networkError) := by
  unfold presolveBranch
  by_cases hs : SelfRef mref b
  · rw [scan_error H mref b b 0 none hs]
  · rw [scan_ok H mref b b 0 none hs]
    rcases hg with hg | ⟨c, hc, d, hd, hne, h1, h2⟩
    · exact absurd hg hs
    · simp only [Nat.zero_add]
      have : 1 < (b.filter H.specified).length := by
        have hc' : c ∈ b.filter H.specified := List.mem_filter.mpr ⟨hc, h1⟩
        have hd' : d ∈ b.filter H.specified := List.mem_filter.mpr ⟨hd, h2⟩
        match hf : b.filter H.specified with
        | [] => rw [hf] at hc'; simp at hc'
        | [x] => rw [hf] at hc' hd'; simp at hc' hd'; exact absurd (hc'.trans hd'.symm) hne
        | x :: y :: r => simp
      rw [if_neg (by omega), if_pos this]

/-- what one admissible branch looks like afterwards: all connections share the container
of the owner `o` -/
structure SharedBy (H H' : MHeap K) (b : List ℕ) (o : ℕ) : Prop where
  mem : o ∈ b
  shared : ∀ c ∈ b, H'.ref c = H.ref o
  onlySpec : ∀ c ∈ b, H.specified c = true → c = o
  first : (∀ c ∈ b, H.specified c = false) → b.head? = some o

theorem presolveBranch_ok_iff (H : MHeap K) (mref : ℕ → Option ℕ) (b : List ℕ) (hn : b.Nodup)
    (hne : b ≠ []) : ((H.presolveBranch mref b).2 = none ↔ ¬ H.BadBranch mref b) := by
  constructor
  · intro h hb; rw [presolveBranch_bad H mref b hb] at h; simp at h
  · intro h; obtain ⟨o, cs, _, _, _, _, _, _, e⟩ := presolveBranch_good H mref b hn hne h; rw [e]

theorem bad_congr {H H' : MHeap K} {mref : ℕ → Option ℕ} {b : List ℕ} (hb : H'.box = H.box)
    (hr : ∀ c ∈ b, H'.ref c = H.ref c) : H'.BadBranch mref b ↔ H.BadBranch mref b := by
  have hs : ∀ c ∈ b, H'.specified c = H.specified c := by
    intro c hc; simp only [specified, hb, hr c hc]
  unfold BadBranch
  refine or_congr_right ?_
  constructor
  · rintro ⟨c, hc, d, hd, hne, h1, h2⟩; exact ⟨c, hc, d, hd, hne, hs c hc ▸ h1, hs d hd ▸ h2⟩
  · rintro ⟨c, hc, d, hd, hne, h1, h2⟩; exact ⟨c, hc, d, hd, hne, (hs c hc).symm ▸ h1, (hs d hd).symm ▸ h2⟩

/-- C17: mass flow presolve. If it succeeds, in every branch all connections share the
container of one owner, which is the connection with the specified value, if there is one
(no other connection of the branch then has a specification), and the first connection
otherwise; nothing else changes, connections outside of the branches keep their
container. -/
theorem C17_one_mass_flow_per_branch (mref : ℕ → Option ℕ) (branches : List (List ℕ)) (H : MHeap K)
    (hdisj : branches.flatten.Nodup) (hne : ∀ b ∈ branches, b ≠ [])
    (hok : (presolve mref branches H).2 = none) :
    (presolve mref branches H).1.box = H.box ∧
    (∀ c, c ∉ branches.flatten → (presolve mref branches H).1.ref c = H.ref c) ∧
    ∀ b ∈ branches, ∃ o, SharedBy H (presolve mref branches H).1 b o := by
  induction branches generalizing H with
  | nil => simp [presolve]
  | cons b bs ih =>
    rw [List.flatten_cons, List.nodup_append] at hdisj
    obtain ⟨hn, hns, hd⟩ := hdisj
    unfold presolve at hok ⊢
    have hgood : ¬ H.BadBranch mref b := by
      intro hb
      rw [presolveBranch_bad H mref b hb] at hok; simp at hok
    obtain ⟨o, cs, ho, hcn, hcs, hrest, hspec, hfirst, e⟩ :=
      presolveBranch_good H mref b hn (hne b (by simp)) hgood
    rw [e] at hok ⊢
    simp only at hok ⊢
    obtain ⟨i1, i2, i3⟩ := ih (mapTo o cs H) hns (fun b' hb' => hne b' (by simp [hb'])) hok
    have hout : ∀ c, c ∉ b → (mapTo o cs H).ref c = H.ref c := by
      intro c hc; rw [mapTo_ref, if_neg (fun h => hc (hcs h))]
    refine ⟨i1.trans (mapTo_box _ _ _), ?_, ?_⟩
    · intro c hc
      rw [List.flatten_cons, List.mem_append, not_or] at hc
      rw [i2 c hc.2, hout c hc.1]
    · intro b' hb'
      rcases List.mem_cons.mp hb' with rfl | hb'
      · refine ⟨o, ho, ?_, hspec, hfirst⟩
        intro c hc
        rw [i2 c (fun h => hd c hc c h rfl), mapTo_ref]
        split
        · rfl
        · rename_i h; rw [hrest c hc h]
      · obtain ⟨o', s⟩ := i3 b' hb'
        have hin : ∀ c ∈ b', c ∉ b := fun c hc h =>
          hd c h c (List.mem_flatten.mpr ⟨b', hb', hc⟩) rfl
        have hs : ∀ c ∈ b', (mapTo o cs H).specified c = H.specified c := by
          intro c hc; simp only [specified, mapTo_box, hout c (hin c hc)]
        refine ⟨o', s.mem, ?_, ?_, ?_⟩
        · intro c hc; rw [s.shared c hc, hout o' (hin o' s.mem)]
        · intro c hc h; exact s.onlySpec c hc ((hs c hc).symm ▸ h)
        · intro h; exact s.first (fun c hc => (hs c hc).trans (h c hc))

/-- C17: the presolve raises an error if and only if a branch has two specified values or
a reference between two of its connections. -/
theorem C17_error_iff (mref : ℕ → Option ℕ) (branches : List (List ℕ)) (H : MHeap K)
    (hdisj : branches.flatten.Nodup) (hne : ∀ b ∈ branches, b ≠ []) :
    ((presolve mref branches H).2 = some .networkError ↔
      ∃ b ∈ branches, (∃ c ∈ b, ∃ d ∈ b, mref c = some d) ∨
        ∃ c ∈ b, ∃ d ∈ b, c ≠ d ∧ H.specified c = true ∧ H.specified d = true) ∧
    ((presolve mref branches H).2 = none ∨ (presolve mref branches H).2 = some .networkError) := by
  induction branches generalizing H with
  | nil => simp [presolve]
  | cons b bs ih =>
    rw [List.flatten_cons, List.nodup_append] at hdisj
    obtain ⟨hn, hns, hd⟩ := hdisj
    unfold presolve
    by_cases hb : H.BadBranch mref b
    · rw [presolveBranch_bad H mref b hb]
      simp only [true_iff, or_true, and_true]
      exact ⟨b, by simp, hb⟩
    · obtain ⟨o, cs, ho, hcn, hcs, hrest, hspec, hfirst, e⟩ :=
        presolveBranch_good H mref b hn (hne b (by simp)) hb
      rw [e]
      simp only
      obtain ⟨i1, i2⟩ := ih (mapTo o cs H) hns (fun b' hb' => hne b' (by simp [hb']))
      refine ⟨?_, i2⟩
      rw [i1]
      have hcong : ∀ b' ∈ bs, ((mapTo o cs H).BadBranch mref b' ↔ H.BadBranch mref b') := by
        intro b' hb'
        refine bad_congr (mapTo_box _ _ _) (fun c hc => ?_)
        rw [mapTo_ref, if_neg (fun h => hd c (hcs h) c (List.mem_flatten.mpr ⟨b', hb', hc⟩) rfl)]
      constructor
      · rintro ⟨b', hb', h⟩; exact ⟨b', by simp [hb'], (hcong b' hb').mp h⟩
      · rintro ⟨b', hb', h⟩
        rcases List.mem_cons.mp hb' with rfl | hb'
        · exact absurd h hb
        · exact ⟨b', hb', (hcong b' hb').mpr h⟩

/-- C17: two connections share their mass flow exactly if they are in one branch: the
branches do not influence each other. -/
theorem C17_shared_iff (mref : ℕ → Option ℕ) (branches : List (List ℕ)) (H : MHeap K)
    (hdisj : branches.flatten.Nodup) (hne : ∀ b ∈ branches, b ≠ [])
    (hok : (presolve mref branches H).2 = none) (hinj : Function.Injective H.ref) (c d : ℕ) :
    (presolve mref branches H).1.ref c = (presolve mref branches H).1.ref d ↔
      c = d ∨ ∃ b ∈ branches, c ∈ b ∧ d ∈ b := by
  obtain ⟨_, h2, h3⟩ := C17_one_mass_flow_per_branch mref branches H hdisj hne hok
  have cls : ∀ x, (x ∉ branches.flatten ∧ (presolve mref branches H).1.ref x = H.ref x) ∨
      ∃ b ∈ branches, x ∈ b ∧ ∃ o ∈ b, (∀ y ∈ b, (presolve mref branches H).1.ref y = H.ref o) := by
    intro x
    by_cases hx : x ∈ branches.flatten
    · obtain ⟨b, hb, hxb⟩ := List.mem_flatten.mp hx
      obtain ⟨o, s⟩ := h3 b hb
      exact Or.inr ⟨b, hb, hxb, o, s.mem, s.shared⟩
    · exact Or.inl ⟨hx, h2 x hx⟩
  have same : ∀ b ∈ branches, ∀ b' ∈ branches, ∀ o, o ∈ b → o ∈ b' → b = b' := by
    intro b hb b' hb' o ho ho'
    by_contra hbb
    rw [List.nodup_flatten] at hdisj
    have hsym : Std.Symm (List.Disjoint (α := ℕ)) := ⟨fun x y h => h.symm⟩
    have := hdisj.2.forall hb hb' hbb
    exact this ho ho'
  constructor
  · intro h
    rcases cls c with ⟨hc, ec⟩ | ⟨b, hb, hcb, o, ho, eb⟩ <;>
      rcases cls d with ⟨hd, ed⟩ | ⟨b', hb', hdb, o', ho', eb'⟩
    · left; rw [ec, ed] at h; exact hinj h
    · rw [ec, eb' d hdb] at h
      exact absurd (List.mem_flatten.mpr ⟨b', hb', hinj h ▸ ho'⟩) hc
    · rw [eb c hcb, ed] at h
      exact absurd (List.mem_flatten.mpr ⟨b, hb, (hinj h) ▸ ho⟩) hd
    · right
      rw [eb c hcb, eb' d hdb] at h
      have := hinj h
      subst this
      have := same b hb b' hb' o ho ho'
      subst this
      exact ⟨b, hb, hcb, hdb⟩
  · rintro (rfl | ⟨b, hb, hc, hd⟩)
    · rfl
    · obtain ⟨o, s⟩ := h3 b hb
      rw [s.shared c hc, s.shared d hd]

/-! ### reset -/

/-- invariant of the reset: `r0` are the original containers, `v`, `u` value and unit each
connection had when the reset began -/
structure ResetInv (H : MHeap K) (r0 : ℕ → ℕ) (v : ℕ → K) (u : ℕ → String) : Prop where
  none : ∀ c, H.tmp c = none → H.ref c = r0 c
  some : ∀ c t, H.tmp c = some t → t = r0 c
  owner : ∀ c d, H.ref d = r0 c → H.ref c = r0 c
  val : ∀ c, (H.box (H.ref c)).valSI = v c
  unit : ∀ c, (H.box (H.ref c)).unit = u c

theorem resetConn_inv {H : MHeap K} {r0 : ℕ → ℕ} {v : ℕ → K} {u : ℕ → String}
    (hinj : Function.Injective r0) (h : H.ResetInv r0 v u) (c : ℕ) :
    (H.resetConn c).ResetInv r0 v u ∧ (H.resetConn c).tmp c = Option.none ∧
    (∀ d, H.tmp d = Option.none → (H.resetConn c).tmp d = Option.none) ∧
    (∀ b, ((H.resetConn c).box b).isSet = (H.box b).isSet ∧
      ((H.resetConn c).box b).val = (H.box b).val) := by
  unfold resetConn
  cases ht : H.tmp c with
  | none => exact ⟨h, ht, fun _ h => h, fun _ => ⟨rfl, rfl⟩⟩
  | some t =>
    have htr := h.some c t ht
    subst htr
    simp only
    refine ⟨⟨?_, ?_, ?_, ?_, ?_⟩, by simp, ?_, ?_⟩
    · intro d hd
      by_cases hdc : d = c
      · subst hdc; simp
      · simp only [Function.update_apply, hdc, if_false] at hd ⊢; exact h.none d hd
    · intro d t hd
      by_cases hdc : d = c
      · subst hdc; simp at hd
      · simp only [Function.update_apply, hdc, if_false] at hd; exact h.some d t hd
    · intro e d hd
      by_cases hdc : d = c
      · subst hdc
        simp only [Function.update_self] at hd
        have := hinj hd
        subst this; simp
      · simp only [Function.update_apply, hdc, if_false] at hd ⊢
        by_cases hec : e = c
        · simp [hec]
        · simp only [hec, if_false]; exact h.owner e d hd
    · intro d
      by_cases hdc : d = c
      · subst hdc; simp [h.val]
      · simp only [Function.update_apply, hdc, if_false]
        split
        · rename_i heq
          have := h.owner c d heq
          simp only
          rw [← h.val d, heq, this]
        · exact h.val d
    · intro d
      by_cases hdc : d = c
      · subst hdc; simp [h.unit]
      · simp only [Function.update_apply, hdc, if_false]
        split
        · rename_i heq
          have := h.owner c d heq
          simp only
          rw [← h.unit d, heq, this]
        · exact h.unit d
    · intro d hd
      by_cases hdc : d = c
      · subst hdc; simp
      · simp only [Function.update_apply, hdc, if_false]; exact hd
    · intro b
      by_cases hb : b = r0 c
      · subst hb; simp
      · simp [hb]

theorem reset_inv {r0 : ℕ → ℕ} {v : ℕ → K} {u : ℕ → String} (hinj : Function.Injective r0)
    (cs : List ℕ) : ∀ {H : MHeap K}, H.ResetInv r0 v u →
    (H.reset cs).ResetInv r0 v u ∧ (∀ c ∈ cs, (H.reset cs).tmp c = Option.none) ∧
    (∀ d, H.tmp d = Option.none → (H.reset cs).tmp d = Option.none) ∧
    (∀ b, ((H.reset cs).box b).isSet = (H.box b).isSet ∧ ((H.reset cs).box b).val = (H.box b).val) := by
  induction cs with
  | nil => intro H h; exact ⟨h, by simp, fun _ h => h, fun _ => ⟨rfl, rfl⟩⟩
  | cons c cs ih =>
    intro H h
    obtain ⟨a1, a2, a3, a4⟩ := resetConn_inv hinj h c
    obtain ⟨b1, b2, b3, b4⟩ := ih a1
    refine ⟨b1, ?_, fun d hd => b3 d (a3 d hd), fun b => ⟨(b4 b).1.trans (a4 b).1, (b4 b).2.trans (a4 b).2⟩⟩
    intro d hd
    rcases List.mem_cons.mp hd with rfl | hd
    · exact b3 d a2
    · exact b2 d hd

theorem presolve_tmp (mref : ℕ → Option ℕ) (branches : List (List ℕ)) (H : MHeap K)
    (hdisj : branches.flatten.Nodup) (hne : ∀ b ∈ branches, b ≠ [])
    (hok : (presolve mref branches H).2 = none) (h0 : ∀ c, H.tmp c = none) :
    (∀ c, (presolve mref branches H).1.tmp c = none → (presolve mref branches H).1.ref c = H.ref c) ∧
    (∀ c t, (presolve mref branches H).1.tmp c = some t → t = H.ref c ∧ c ∈ branches.flatten) := by
  -- stronger statement without `h0` for the connections of the branches
  suffices hsuf : ∀ (H : MHeap K), (presolve mref branches H).2 = none →
      (∀ c ∈ branches.flatten, H.tmp c = none) →
      (∀ c, c ∉ branches.flatten → (presolve mref branches H).1.tmp c = H.tmp c) ∧
      (∀ c ∈ branches.flatten, (presolve mref branches H).1.tmp c = none →
        (presolve mref branches H).1.ref c = H.ref c) ∧
      (∀ c ∈ branches.flatten, ∀ t, (presolve mref branches H).1.tmp c = some t → t = H.ref c) by
    obtain ⟨s1, s2, s3⟩ := hsuf H hok (fun c _ => h0 c)
    have h2 := (C17_one_mass_flow_per_branch mref branches H hdisj hne hok).2.1
    constructor
    · intro c hc
      by_cases hm : c ∈ branches.flatten
      · exact s2 c hm hc
      · exact h2 c hm
    · intro c t hc
      by_cases hm : c ∈ branches.flatten
      · exact ⟨s3 c hm t hc, hm⟩
      · rw [s1 c hm, h0] at hc; simp at hc
  clear hok h0 H
  induction branches with
  | nil => intro H _ _; simp [presolve]
  | cons b bs ih =>
    intro H hok h0
    have hdisj0 := hdisj
    rw [List.flatten_cons, List.nodup_append] at hdisj
    obtain ⟨hn, hns, hd⟩ := hdisj
    have hgood : ¬ H.BadBranch mref b := by
      intro hb
      unfold presolve at hok
      rw [presolveBranch_bad H mref b hb] at hok; simp at hok
    obtain ⟨o, cs, ho, hcn, hcs, hrest, hspec, hfirst, e⟩ :=
      presolveBranch_good H mref b hn (hne b (by simp)) hgood
    have hunf : presolve mref (b :: bs) H = presolve mref bs (mapTo o cs H) := by
      rw [presolve, e]
    rw [hunf] at hok ⊢
    have hnotin : ∀ c ∈ bs.flatten, c ∉ cs := fun c hc h => hd c (hcs h) c hc rfl
    have h0' : ∀ c ∈ bs.flatten, (mapTo o cs H).tmp c = none := by
      intro c hc
      rw [mapTo_tmp_of_not_mem _ _ _ _ (hnotin c hc)]
      exact h0 c (by rw [List.flatten_cons]; exact List.mem_append_right _ hc)
    obtain ⟨i1, i2, i3⟩ := ih hns (fun b' hb' => hne b' (by simp [hb'])) (mapTo o cs H) hok h0'
    have href := (C17_one_mass_flow_per_branch mref bs (mapTo o cs H) hns
      (fun b' hb' => hne b' (by simp [hb'])) hok).2.1
    refine ⟨?_, ?_, ?_⟩
    · intro c hc
      rw [List.flatten_cons, List.mem_append, not_or] at hc
      rw [i1 c hc.2, mapTo_tmp_of_not_mem _ _ _ _ (fun h => hc.1 (hcs h))]
    · intro c hc ht
      rw [List.flatten_cons, List.mem_append] at hc
      by_cases hcb : c ∈ bs.flatten
      · rw [i2 c hcb ht, mapTo_ref, if_neg (hnotin c hcb)]
      · have hcb' := hc.resolve_right hcb
        rw [i1 c hcb] at ht
        have hncs : c ∉ cs := by
          intro h; rw [mapTo_tmp_of_mem _ _ _ hcn _ h] at ht; simp at ht
        rw [href c hcb, mapTo_ref, if_neg hncs]
    · intro c hc t ht
      rw [List.flatten_cons, List.mem_append] at hc
      by_cases hcb : c ∈ bs.flatten
      · rw [i3 c hcb t ht, mapTo_ref, if_neg (hnotin c hcb)]
      · have hcb' := hc.resolve_right hcb
        rw [i1 c hcb] at ht
        by_cases h : c ∈ cs
        · rw [mapTo_tmp_of_mem _ _ _ hcn _ h] at ht; injection ht with ht; exact ht.symm
        · rw [mapTo_tmp_of_not_mem _ _ _ _ h, h0 c (by rw [List.flatten_cons]; exact List.mem_append_left _ hcb')] at ht
          simp at ht

/-- C18 (mass flow): after presolve, solution (which changes values, not the
specification flags) and reset, every connection has its own container and its own
specification again, and its value is the value computed for its branch. -/
theorem C18_reset_restores (mref : ℕ → Option ℕ) (branches : List (List ℕ)) (H : MHeap K)
    (conns : List ℕ) (newVal : ℕ → K)
    (hdisj : branches.flatten.Nodup) (hne : ∀ b ∈ branches, b ≠ [])
    (hsub : branches.flatten ⊆ conns)
    (hinj : Function.Injective H.ref) (h0 : ∀ c, H.tmp c = none)
    (hok : (presolve mref branches H).2 = none) :
    let H1 := (presolve mref branches H).1
    let H3 := (H1.solved newVal).reset conns
    (∀ c, H3.ref c = H.ref c ∧ H3.tmp c = none ∧
      (H3.box (H3.ref c)).isSet = (H.box (H.ref c)).isSet ∧
      (H3.box (H3.ref c)).val = (H.box (H.ref c)).val ∧
      (H3.box (H3.ref c)).valSI = newVal (H1.ref c)) ∧
    (∀ b ∈ branches, ∀ c ∈ b, ∀ d ∈ b,
      (H3.box (H3.ref c)).valSI = (H3.box (H3.ref d)).valSI) := by
  intro H1 H3
  obtain ⟨p1, p2, p3⟩ := C17_one_mass_flow_per_branch mref branches H hdisj hne hok
  obtain ⟨t1, t2⟩ := presolve_tmp mref branches H hdisj hne hok h0
  have hshare := C17_shared_iff mref branches H hdisj hne hok hinj
  have inv : (H1.solved newVal).ResetInv H.ref (fun c => newVal (H1.ref c))
      (fun c => ((H1.solved newVal).box (H1.ref c)).unit) := by
    refine ⟨fun c hc => t1 c hc, fun c t hc => (t2 c t hc).1, ?_, fun c => rfl, fun c => rfl⟩
    intro c d hcd
    -- d refers to the original container of c: c is the owner of its branch
    show H1.ref c = H.ref c
    by_cases hd : d ∈ branches.flatten
    · obtain ⟨b, hb, hdb⟩ := List.mem_flatten.mp hd
      obtain ⟨o, s⟩ := p3 b hb
      have : H.ref o = H.ref c := by rw [← s.shared d hdb]; exact hcd
      have := hinj this
      subst this
      exact s.shared o s.mem
    · have e : H.ref d = H.ref c := by rw [← p2 d hd]; exact hcd
      have := hinj e
      subst this
      exact p2 d hd
  obtain ⟨r1, r2, r3, r4⟩ := reset_inv hinj conns inv
  have htmp : ∀ c, H3.tmp c = none := by
    intro c
    cases hc : H1.tmp c with
    | none => exact r3 c hc
    | some t => exact r2 c (hsub (t2 c t hc).2)
  have hval : ∀ c, (H3.box (H3.ref c)).valSI = newVal (H1.ref c) := fun c => r1.val c
  refine ⟨fun c => ?_, ?_⟩
  · have hr : H3.ref c = H.ref c := r1.none c (htmp c)
    refine ⟨hr, htmp c, ?_, ?_, hval c⟩
    · rw [hr]
      have := (r4 (H.ref c)).1
      rw [show H3.box = ((H1.solved newVal).reset conns).box from rfl, this]
      show (H1.box (H.ref c)).isSet = _
      rw [show H1.box = H.box from p1]
    · rw [hr]
      have := (r4 (H.ref c)).2
      rw [show H3.box = ((H1.solved newVal).reset conns).box from rfl, this]
      show (H1.box (H.ref c)).val = _
      rw [show H1.box = H.box from p1]
  · intro b hb c hc d hd
    rw [hval, hval]
    congr 1
    exact (hshare c d).mpr (Or.inr ⟨b, hb, hc, hd⟩)

/-- C19, refuted: if a calculation is aborted after the presolve (no reset), then solving
again raises an error for every branch with more than one connection and a specified mass
flow, whatever the user corrected elsewhere: the specification is now seen once per
connection. -/
theorem C19_second_presolve_fails (mref : ℕ → Option ℕ) (H : MHeap K) (b : List ℕ) (hn : b.Nodup)
    (c d : ℕ) (hc : c ∈ b) (hd : d ∈ b) (hcd : c ≠ d) (hs : H.specified c = true)
    (hok : (H.presolveBranch mref b).2 = none) :
    ((H.presolveBranch mref b).1.presolveBranch mref b).2 = some .networkError := by
  have hne : b ≠ [] := by rintro rfl; simp at hc
  have hg := (presolveBranch_ok_iff H mref b hn hne).mp hok
  obtain ⟨o, cs, ho, hcn, hcs, hrest, hspec, hfirst, e⟩ := presolveBranch_good H mref b hn hne hg
  rw [e]
  have hco := hspec c hc hs
  subst hco
  have hall : ∀ x ∈ b, (mapTo c cs H).specified x = true := by
    intro x hx
    unfold specified
    rw [mapTo_box, mapTo_ref]
    split
    · exact hs
    · rename_i h; rw [hrest x hx h]; exact hs
  rw [presolveBranch_bad _ mref b (Or.inr ⟨c, hc, d, hd, hcd, hall c hc, hall d hd⟩)]

/-- C19, refuted: without a specification in the branch the second presolve succeeds, but
the own containers of the connections are lost: after the reset two connections of the
branch still share one container. -/
theorem C19_containers_lost (mref : ℕ → Option ℕ) (H : MHeap K) (o c : ℕ) (rest conns : List ℕ)
    (hn : (o :: rest).Nodup) (hc : c ∈ rest) (hs : ∀ x ∈ o :: rest, H.specified x = false)
    (href : ¬ SelfRef mref (o :: rest)) (h0 : H.tmp o = none) :
    let H1 := (H.presolveBranch mref (o :: rest)).1
    let H2 := (H1.presolveBranch mref (o :: rest)).1
    (H2.reset conns).ref c = (H2.reset conns).ref o := by
  intro H1 H2
  have pre : ∀ (G : MHeap K), (∀ x ∈ o :: rest, G.specified x = false) →
      (G.presolveBranch mref (o :: rest)) = (mapTo o rest G, none) := by
    intro G hG
    unfold presolveBranch
    rw [scan_ok G mref _ _ 0 none href]
    have : (o :: rest).filter G.specified = [] := by
      rw [List.filter_eq_nil_iff]; intro x hx; simp [hG x hx]
    simp [this]
  have hn' := List.nodup_cons.mp hn
  have e1 : H1 = mapTo o rest H := by show (H.presolveBranch mref (o :: rest)).1 = _; rw [pre H hs]
  have hs1 : ∀ x ∈ o :: rest, H1.specified x = false := by
    intro x hx
    rw [e1]
    unfold specified
    rw [mapTo_box, mapTo_ref]
    split
    · exact hs o (by simp)
    · exact hs x hx
  have e2 : H2 = mapTo o rest H1 := by show (H1.presolveBranch mref (o :: rest)).1 = _; rw [pre H1 hs1]
  have r1 : ∀ x ∈ o :: rest, H1.ref x = H.ref o := by
    intro x hx
    rw [e1, mapTo_ref]
    split
    · rfl
    · rename_i h
      rcases List.mem_cons.mp hx with rfl | hx
      · rfl
      · exact absurd hx h
  -- both the present and the saved container of `c` are the one of `o`
  have q : ∀ (cs : List ℕ) (G : MHeap K), G.ref o = H.ref o → G.tmp o = none → G.ref c = H.ref o →
      (∀ t, G.tmp c = some t → t = H.ref o) →
      (G.reset cs).ref c = H.ref o ∧ (G.reset cs).ref o = H.ref o := by
    intro cs
    induction cs with
    | nil => intro G a b d e; exact ⟨d, a⟩
    | cons x cs ih =>
      intro G a b d e
      show ((G.resetConn x).reset cs).ref c = _ ∧ ((G.resetConn x).reset cs).ref o = _
      unfold resetConn
      cases hx : G.tmp x with
      | none => exact ih G a b d e
      | some t =>
        have hxo : x ≠ o := by rintro rfl; rw [b] at hx; simp at hx
        apply ih
        · simp only [Function.update_apply]; rw [if_neg hxo.symm]; exact a
        · simp only [Function.update_apply]; rw [if_neg hxo.symm]; exact b
        · simp only [Function.update_apply]
          split
          · rename_i hcx; subst hcx; exact e t hx
          · exact d
        · intro t'
          simp only [Function.update_apply]
          split
          · simp
          · exact e t'
  have hco : c ∈ o :: rest := List.mem_cons_of_mem _ hc
  have := q conns H2 ?_ ?_ ?_ ?_
  · rw [this.1, this.2]
  · rw [e2, mapTo_ref, if_neg hn'.1]; exact r1 o (by simp)
  · rw [e2, mapTo_tmp_of_not_mem _ _ _ _ hn'.1, e1, mapTo_tmp_of_not_mem _ _ _ _ hn'.1]; exact h0
  · rw [e2, mapTo_ref, if_pos hc]; exact r1 o (by simp)
  · intro t ht
    rw [e2, mapTo_tmp_of_mem _ _ _ hn'.2 _ hc] at ht
    injection ht with ht
    rw [← ht]; exact r1 c hco

/-- C19, the part that holds: if the reset is carried out after the abort, a further
presolve (with corrected specifications in other places, e.g. other references) has the
same outcome as on the untouched model. Missing: the code carries out the reset only when
the calculation comes to its end. -/
theorem C19_reset_after_abort_partial (mref mref' : ℕ → Option ℕ) (branches : List (List ℕ))
    (H : MHeap K) (conns : List ℕ) (newVal : ℕ → K)
    (hdisj : branches.flatten.Nodup) (hne : ∀ b ∈ branches, b ≠ [])
    (hsub : branches.flatten ⊆ conns)
    (hinj : Function.Injective H.ref) (h0 : ∀ c, H.tmp c = none)
    (hok : (presolve mref branches H).2 = none) :
    let H3 := ((presolve mref branches H).1.solved newVal).reset conns
    (presolve mref' branches H3).2 = (presolve mref' branches H).2 := by
  intro H3
  obtain ⟨h1, _⟩ := C18_reset_restores mref branches H conns newVal hdisj hne hsub hinj h0 hok
  have hs : ∀ c, H3.specified c = H.specified c := fun c => (h1 c).2.2.1
  obtain ⟨a1, a2⟩ := C17_error_iff mref' branches H3 hdisj hne
  obtain ⟨b1, b2⟩ := C17_error_iff mref' branches H hdisj hne
  simp only [hs] at a1
  rcases b2 with b2 | b2
  · rw [b2]
    rcases a2 with a2 | a2
    · exact a2
    · rw [b1.mpr (a1.mp a2)] at b2; simp at b2
  · rw [b2]; exact a1.mpr (b1.mp b2)

/-- three connections in one branch, mass flow given at the second; a second branch of two -/
def exHeap : MHeap ℚ where
  box b := if b = 1 then ⟨true, 10, 10, "kg / s"⟩ else ⟨false, 1, 1, "kg / s"⟩
  ref := id
  tmp _ := none

-- non-vacuity of C17, C18, C19
example : ([[0, 1, 2], [3, 4]] : List (List ℕ)).flatten.Nodup ∧
    (presolve (fun _ => none) [[0, 1, 2], [3, 4]] exHeap).2 = none ∧
    Function.Injective exHeap.ref ∧ (∀ c, exHeap.tmp c = none) ∧
    (presolve (fun _ => none) [[0, 1, 2], [3, 4]] exHeap).1.ref 2 = 1 := by
  refine ⟨by decide, by decide +kernel, fun a b h => h, fun _ => rfl, by decide +kernel⟩
example : exHeap.specified 1 = true ∧ (exHeap.presolveBranch (fun _ => none) [0, 1, 2]).2 = none := by
  decide +kernel
example : ∀ x ∈ [3, 4], exHeap.specified x = false := by decide +kernel

end MHeap
end Tespy
