import Mathlib.Data.List.Nodup
import Mathlib.Logic.Function.Basic
import Verif.Model.FluidHeap
import Verif.Lemmas.DictLemmas
import Verif.Props.FluidPresolve
/-
C18 (fluid part): the shared fluid containers are separated again, their specification
flags are the ones from before. C51: but the dictionaries of mass fractions stay shared.
-/
namespace Tespy
namespace FlHeap
variable {ι K : Type} [DecidableEq ι]

theorem mapTo_ref (main : ι) (cs : List ι) (H : FlHeap ι K) (c : ι) :
    (mapTo main cs H).ref c = if c ∈ cs then H.ref main else H.ref c := by
  induction cs generalizing H with
  | nil => simp [mapTo]
  | cons d cs ih =>
    rw [mapTo, ih]
    simp only [Function.update_apply, List.mem_cons]
    by_cases h1 : c ∈ cs
    · simp only [h1, if_true, or_true]
      by_cases h2 : main = d <;> simp [h2]
    · by_cases h2 : c = d <;> simp [h1, h2]

theorem mapTo_same (main : ι) (cs : List ι) (H : FlHeap ι K) :
    (mapTo main cs H).box = H.box ∧ (mapTo main cs H).dict = H.dict ∧ (mapTo main cs H).next = H.next := by
  induction cs generalizing H with
  | nil => exact ⟨rfl, rfl, rfl⟩
  | cons d cs ih => rw [mapTo]; exact ih _

theorem mapTo_tmp (main : ι) (cs : List ι) (H : FlHeap ι K) (hn : cs.Nodup) (c : ι) :
    (mapTo main cs H).tmp c = if c ∈ cs then some (H.ref c) else H.tmp c := by
  induction cs generalizing H with
  | nil => simp [mapTo]
  | cons d cs ih =>
    rw [List.nodup_cons] at hn
    rw [mapTo, ih _ hn.2]
    by_cases h1 : c ∈ cs
    · have : c ≠ d := by rintro rfl; exact hn.1 h1
      simp [h1, this]
    · by_cases h2 : c = d
      · subst h2; simp [h1]
      · simp [h1, h2]

/-- the container a connection gets back at the reset -/
def target (H : FlHeap ι K) (c : ι) : ℕ := (H.tmp c).getD (H.ref c)

/-- invariant of the phase between presolve and reset -/
structure Base (H : FlHeap ι K) : Prop where
  inj : Function.Injective H.target
  lt : ∀ c, H.target c < H.next ∧ H.ref c < H.next
  own : ∀ c d, H.ref d = H.target c → H.ref c = H.target c

/-- invariant of the presolve -/
structure Inv (H : FlHeap ι K) : Prop extends Base H where
  priv : ∀ c d, H.tmp c = none → H.ref d = H.ref c → d = c

theorem target_of_none {H : FlHeap ι K} {c : ι} (h : H.tmp c = none) : H.target c = H.ref c := by
  simp [target, h]

section branch
variable {complete : FluidBox K → List (FluidBox K) → PyRes (FluidBox K)} {main : ι} {rest : List ι}
  {H H' : FlHeap ι K}

theorem presolveBranch_eff (hn : (main :: rest).Nodup) (hinv : H.Inv)
    (hok : H.presolveBranch complete main rest = (H', none)) :
    (∀ x, H'.ref x = if x ∈ rest then H.ref main else H.ref x) ∧
    (∀ x, H'.tmp x = if x = main then some H.next else if x ∈ rest then some (H.ref x) else H.tmp x) ∧
    (H'.next = H.next + 1) ∧
    (∃ r : FluidBox K, ∀ b, H'.box b = if b = H.ref main then
        { H.box (H.ref main) with isSet := r.isSet, isVar := r.isVar }
      else if b = H.next then { H.box (H.ref main) with valRef := H.next } else H.box b) := by
  rw [List.nodup_cons] at hn
  unfold presolveBranch at hok
  cases hc : complete (H.content main) (rest.map H.content) with
  | error e => rw [hc] at hok; simp at hok
  | ok r =>
    rw [hc] at hok
    simp only [Prod.mk.injEq, and_true] at hok
    subst hok
    obtain ⟨s1, s2, s3⟩ := mapTo_same main rest (saveMain main H)
    have hlt := (hinv.lt main).2
    have hrm : (mapTo main rest (saveMain main H)).ref main = H.ref main := by
      rw [mapTo_ref, if_neg hn.1]; rfl
    refine ⟨?_, ?_, ?_, r, ?_⟩
    · intro x
      show (mapTo main rest (saveMain main H)).ref x = _
      rw [mapTo_ref]; rfl
    · intro x
      show (mapTo main rest (saveMain main H)).tmp x = _
      rw [mapTo_tmp _ _ _ hn.2]
      show (if x ∈ rest then some (H.ref x) else (Function.update H.tmp main (some H.next)) x) = _
      by_cases h1 : x = main
      · subst h1; simp [hn.1]
      · simp [h1]
    · show (mapTo main rest (saveMain main H)).next = _
      rw [s3]; rfl
    · intro b
      simp only [writeMain, Function.update_apply, hrm, s1]
      have hb : (saveMain main H).box (H.ref main) = H.box (H.ref main) := by
        simp [saveMain, Function.update_apply, hlt.ne]
      rw [hb]
      by_cases h1 : b = H.ref main
      · simp [h1]
      · simp [h1, saveMain, Function.update_apply]

theorem presolveBranch_inv (hn : (main :: rest).Nodup) (hinv : H.Inv)
    (ht : ∀ c ∈ main :: rest, H.tmp c = none)
    (hok : H.presolveBranch complete main rest = (H', none)) :
    H'.Inv ∧ (∀ c, (H'.box (H'.target c)).isSet = (H.box (H.target c)).isSet ∧
      (H'.box (H'.target c)).isVar = (H.box (H.target c)).isVar) ∧
    (∀ c, c ∉ main :: rest → H'.tmp c = H.tmp c ∧ H'.ref c = H.ref c) ∧
    (∀ c ∈ rest, H'.ref c = H'.ref main) ∧
    (∀ c t, H'.tmp c = some t → H.tmp c = some t ∨ c ∈ main :: rest) := by
  obtain ⟨e1, e2, e3, r, e4⟩ := presolveBranch_eff hn hinv hok
  have hmr := (List.nodup_cons.mp hn).1
  have tm : H.target main = H.ref main := target_of_none (ht main (by simp))
  have tgt : ∀ x, H'.target x = if x = main then H.next else H.target x := by
    intro x
    unfold target
    rw [e2, e1]
    by_cases h1 : x = main
    · simp [h1]
    · by_cases h2 : x ∈ rest
      · simp [h1, h2, ht x (by simp [h2])]
      · simp [h1, h2]
  refine ⟨⟨⟨?_, ?_, ?_⟩, ?_⟩, ?_, ?_, ?_, ?_⟩
  · intro x y hxy
    rw [tgt, tgt] at hxy
    by_cases h1 : x = main <;> by_cases h2 : y = main
    · rw [h1, h2]
    · simp only [h1, h2, if_true, if_false] at hxy; exact absurd hxy (hinv.lt y).1.ne'
    · simp only [h1, h2, if_true, if_false] at hxy; exact absurd hxy (hinv.lt x).1.ne
    · simp only [h1, h2, if_false] at hxy; exact hinv.inj hxy
  · intro x
    rw [tgt, e1, e3]
    constructor
    · split
      · omega
      · exact Nat.lt_succ_of_lt (hinv.lt x).1
    · split
      · exact Nat.lt_succ_of_lt (hinv.lt main).2
      · exact Nat.lt_succ_of_lt (hinv.lt x).2
  · intro c d hcd
    rw [tgt] at hcd ⊢
    rw [e1] at hcd ⊢
    by_cases hcm : c = main
    · rw [if_pos hcm] at hcd
      exfalso
      split at hcd
      · exact absurd hcd (hinv.lt main).2.ne
      · exact absurd hcd (hinv.lt d).2.ne
    · rw [if_neg hcm] at hcd ⊢
      by_cases hdr : d ∈ rest
      · rw [if_pos hdr, ← tm] at hcd
        exact absurd (hinv.inj hcd).symm hcm
      · rw [if_neg hdr] at hcd
        have hc := hinv.own c d hcd
        by_cases hcr : c ∈ rest
        · exfalso
          have : d = c := hinv.priv c d (ht c (by simp [hcr])) (hcd.trans hc.symm)
          exact hdr (this ▸ hcr)
        · rw [if_neg hcr]; exact hc
  · intro c d hc hcd
    rw [e2] at hc
    by_cases hcm : c = main
    · simp [hcm] at hc
    · by_cases hcr : c ∈ rest
      · simp [hcm, hcr] at hc
      · simp only [hcm, hcr, if_false] at hc
        rw [e1, e1, if_neg hcr] at hcd
        by_cases hdr : d ∈ rest
        · rw [if_pos hdr] at hcd
          exact absurd (hinv.priv c main hc hcd).symm hcm
        · rw [if_neg hdr] at hcd; exact hinv.priv c d hc hcd
  · intro c
    rw [tgt]
    by_cases hcm : c = main
    · rw [if_pos hcm, e4, if_neg (hinv.lt main).2.ne', if_pos rfl]
      rw [hcm, tm]; exact ⟨rfl, rfl⟩
    · rw [if_neg hcm, e4, if_neg, if_neg (hinv.lt c).1.ne]
      · exact ⟨rfl, rfl⟩
      · intro h; rw [← tm] at h; exact hcm (hinv.inj h)
  · intro c hc
    rw [List.mem_cons, not_or] at hc
    rw [e2, e1]; simp [hc.1, hc.2]
  · intro c hc
    rw [e1, e1, if_pos hc, if_neg hmr]
  · intro c t h
    rw [e2] at h
    by_cases hcm : c = main
    · right; simp [hcm]
    · by_cases hcr : c ∈ rest
      · right; simp [hcr]
      · left; simpa [hcm, hcr] using h
end branch

/-- all connections of the branches -/
def members (bs : List (ι × List ι)) : List ι := bs.flatMap (fun b => b.1 :: b.2)

theorem presolve_inv (complete : FluidBox K → List (FluidBox K) → PyRes (FluidBox K))
    (bs : List (ι × List ι)) (H : FlHeap ι K) (hn : (members bs).Nodup) (hinv : H.Inv)
    (ht : ∀ c ∈ members bs, H.tmp c = none) (hok : (presolve complete bs H).2 = none) :
    (presolve complete bs H).1.Inv ∧
    (∀ c, ((presolve complete bs H).1.box ((presolve complete bs H).1.target c)).isSet = (H.box (H.target c)).isSet ∧
      ((presolve complete bs H).1.box ((presolve complete bs H).1.target c)).isVar = (H.box (H.target c)).isVar) ∧
    (∀ c, c ∉ members bs → (presolve complete bs H).1.tmp c = H.tmp c ∧ (presolve complete bs H).1.ref c = H.ref c) ∧
    (∀ b ∈ bs, ∀ c ∈ b.2, (presolve complete bs H).1.ref c = (presolve complete bs H).1.ref b.1) ∧
    (∀ c t, (presolve complete bs H).1.tmp c = some t → H.tmp c = some t ∨ c ∈ members bs) := by
  induction bs generalizing H with
  | nil => exact ⟨hinv, fun _ => ⟨rfl, rfl⟩, fun _ _ => ⟨rfl, rfl⟩, by simp, fun _ _ h => Or.inl h⟩
  | cons b bs ih =>
    unfold members at hn ht
    rw [List.flatMap_cons, List.nodup_append] at hn
    obtain ⟨n1, n2, n3⟩ := hn
    unfold presolve at hok ⊢
    cases hb : H.presolveBranch complete b.1 b.2 with
    | mk H1 e =>
      rw [hb] at hok
      cases e with
      | some e => simp at hok
      | none =>
        simp only at hok ⊢
        obtain ⟨a1, a2, a3, a4, a5⟩ := presolveBranch_inv n1 hinv
          (fun c hc => ht c (by rw [List.flatMap_cons]; exact List.mem_append_left _ hc)) hb
        have hdis : ∀ c ∈ members bs, c ∉ b.1 :: b.2 := fun c hc h => n3 c h c hc rfl
        obtain ⟨i1, i2, i3, i4, i5⟩ := ih H1 n2 a1 (by
          intro c hc
          rw [(a3 c (hdis c hc)).1]
          exact ht c (by rw [List.flatMap_cons]; exact List.mem_append_right _ hc)) hok
        refine ⟨i1, fun c => ⟨(i2 c).1.trans (a2 c).1, (i2 c).2.trans (a2 c).2⟩, ?_, ?_, ?_⟩
        · intro c hc
          unfold members at hc
          rw [List.flatMap_cons, List.mem_append, not_or] at hc
          obtain ⟨u1, u2⟩ := i3 c hc.2
          obtain ⟨v1, v2⟩ := a3 c hc.1
          exact ⟨u1.trans v1, u2.trans v2⟩
        · intro b' hb' c hc
          rcases List.mem_cons.mp hb' with rfl | hb'
          · have h1 : c ∉ members bs := fun h => hdis c h (by simp [hc])
            have h2 : b'.1 ∉ members bs := fun h => hdis _ h (by simp)
            rw [(i3 c h1).2, (i3 _ h2).2]; exact a4 c hc
          · exact i4 b' hb' c hc
        · intro c t h
          unfold members
          rw [List.flatMap_cons, List.mem_append]
          rcases i5 c t h with h | h
          · rcases a5 c t h with h | h
            · exact Or.inl h
            · exact Or.inr (Or.inl h)
          · exact Or.inr (Or.inr h)

theorem resetConn_eff {H : FlHeap ι K} (hinv : H.Base) (c : ι) :
    (H.resetConn c).Base ∧ (∀ d, (H.resetConn c).target d = H.target d) ∧
    (H.resetConn c).tmp c = none ∧ (∀ d, H.tmp d = none → (H.resetConn c).tmp d = none) ∧
    (∀ b, ((H.resetConn c).box b).isSet = (H.box b).isSet ∧ ((H.resetConn c).box b).isVar = (H.box b).isVar) ∧
    (H.resetConn c).dict = H.dict ∧
    (∀ d, ((H.resetConn c).box ((H.resetConn c).ref d)).valRef = (H.box (H.ref d)).valRef) := by
  unfold resetConn
  cases ht : H.tmp c with
  | none => exact ⟨hinv, fun _ => rfl, ht, fun _ h => h, fun _ => ⟨rfl, rfl⟩, rfl, fun _ => rfl⟩
  | some t =>
    have htt : H.target c = t := by simp [target, ht]
    simp only
    have tgt : ∀ d, FlHeap.target
        { H with
          box := Function.update H.box t { H.box t with valRef := (H.box (H.ref c)).valRef }
          ref := Function.update H.ref c t
          tmp := Function.update H.tmp c none } d = H.target d := by
      intro d
      unfold target
      simp only [Function.update_apply]
      by_cases h : d = c
      · subst h; simp [ht]
      · simp [h]
    refine ⟨⟨?_, ?_, ?_⟩, tgt, by simp, ?_, ?_, by simp, ?_⟩
    · intro x y h; rw [tgt, tgt] at h; exact hinv.inj h
    · intro x
      rw [tgt]
      refine ⟨(hinv.lt x).1, ?_⟩
      simp only [Function.update_apply]
      split
      · rw [← htt]; exact (hinv.lt c).1
      · exact (hinv.lt x).2
    · intro x d h
      rw [tgt] at h ⊢
      simp only [Function.update_apply] at h ⊢
      by_cases hx : x = c
      · rw [if_pos hx, hx, htt]
      · rw [if_neg hx]
        split at h
        · rw [← htt] at h; exact absurd (hinv.inj h).symm hx
        · exact hinv.own x d h
    · intro d hd
      simp only [Function.update_apply]
      split
      · rfl
      · exact hd
    · intro b
      by_cases h : b = t
      · subst h; simp
      · simp [h]
    · intro d
      simp only [Function.update_apply]
      by_cases hdc : d = c
      · simp [hdc]
      · simp only [hdc, if_false]
        split
        · rename_i h
          have := hinv.own c d (by rw [htt]; exact h)
          simp only
          rw [this, htt, h]
        · rfl

theorem reset_eff (cs : List ι) : ∀ {H : FlHeap ι K}, H.Base →
    (H.reset cs).Base ∧ (∀ d, (H.reset cs).target d = H.target d) ∧
    (∀ c ∈ cs, (H.reset cs).tmp c = none) ∧ (∀ d, H.tmp d = none → (H.reset cs).tmp d = none) ∧
    (∀ b, ((H.reset cs).box b).isSet = (H.box b).isSet ∧ ((H.reset cs).box b).isVar = (H.box b).isVar) ∧
    (H.reset cs).dict = H.dict ∧
    (∀ d, ((H.reset cs).box ((H.reset cs).ref d)).valRef = (H.box (H.ref d)).valRef) := by
  induction cs with
  | nil => intro H h; exact ⟨h, fun _ => rfl, by simp, fun _ h => h, fun _ => ⟨rfl, rfl⟩, rfl, fun _ => rfl⟩
  | cons c cs ih =>
    intro H h
    obtain ⟨a1, a2, a3, a4, a5, a6, a7⟩ := resetConn_eff h c
    obtain ⟨b1, b2, b3, b4, b5, b6, b7⟩ := ih a1
    refine ⟨b1, fun d => (b2 d).trans (a2 d), ?_, fun d hd => b4 d (a4 d hd),
      fun b => ⟨(b5 b).1.trans (a5 b).1, (b5 b).2.trans (a5 b).2⟩, b6.trans a6, fun d => (b7 d).trans (a7 d)⟩
    intro d hd
    rcases List.mem_cons.mp hd with rfl | hd
    · exact b4 d a3
    · exact b3 d hd

/-- the solver changes mass fractions only -/
def solved (H : FlHeap ι K) (newDict : ℕ → Dict String K) : FlHeap ι K := { H with dict := newDict }

/-- State before `solve`: every connection has its own container, nothing is saved. -/
structure Separate (H : FlHeap ι K) : Prop where
  inj : Function.Injective H.ref
  tmp : ∀ c, H.tmp c = none
  lt : ∀ c, H.ref c < H.next

theorem Separate.inv {H : FlHeap ι K} (h : H.Separate) : H.Inv := by
  have ht : ∀ c, H.target c = H.ref c := fun c => target_of_none (h.tmp c)
  refine ⟨⟨?_, ?_, ?_⟩, ?_⟩
  · intro x y hxy; rw [ht, ht] at hxy; exact h.inj hxy
  · intro c; rw [ht]; exact ⟨h.lt c, h.lt c⟩
  · intro c d _; exact (ht c).symm
  · intro c d _ hcd; exact h.inj hcd

/-- C18 (fluid): after presolve, solution and reset every connection has a container of
its own again, in which the specified and the variable fluids are the ones from before,
and the composition it shows is the one computed for its branch. -/
theorem C18_fluid_reset_restores (complete : FluidBox K → List (FluidBox K) → PyRes (FluidBox K))
    (bs : List (ι × List ι)) (H : FlHeap ι K) (conns : List ι) (newDict : ℕ → Dict String K)
    (hn : (members bs).Nodup) (hsub : members bs ⊆ conns) (h0 : H.Separate)
    (hok : (presolve complete bs H).2 = none) :
    let H2 := (presolve complete bs H).1.solved newDict
    let H3 := H2.reset conns
    H3.Separate ∧
    (∀ c, (H3.box (H3.ref c)).isSet = (H.box (H.ref c)).isSet ∧
      (H3.box (H3.ref c)).isVar = (H.box (H.ref c)).isVar ∧ H3.val c = H2.val c) ∧
    (∀ b ∈ bs, ∀ c ∈ b.2, H3.val c = H3.val b.1) := by
  intro H2 H3
  obtain ⟨i1, i2, i3, i4, i5⟩ := presolve_inv complete bs H hn h0.inv (fun c _ => h0.tmp c) hok
  have hbase : H2.Base := ⟨i1.inj, i1.lt, i1.own⟩
  obtain ⟨r1, r2, r3, r4, r5, r6, r7⟩ := reset_eff conns hbase
  have htmp : ∀ c, H3.tmp c = none := by
    intro c
    cases hc : (presolve complete bs H).1.tmp c with
    | none => exact r4 c hc
    | some t =>
      rcases i5 c t hc with h | h
      · rw [h0.tmp] at h; simp at h
      · exact r3 c (hsub h)
  have hval : ∀ c, H3.val c = H2.val c := by
    intro c
    show H3.dict (H3.box (H3.ref c)).valRef = H2.dict (H2.box (H2.ref c)).valRef
    rw [show H3.dict = H2.dict from r6, show (H3.box (H3.ref c)).valRef = (H2.box (H2.ref c)).valRef from r7 c]
  have href : ∀ c, H3.ref c = H3.target c := fun c => (target_of_none (htmp c)).symm
  refine ⟨⟨?_, htmp, fun c => (r1.lt c).2⟩, ?_, ?_⟩
  · intro x y h; rw [href, href] at h; exact r1.inj h
  · intro c
    have ht : H.target c = H.ref c := target_of_none (h0.tmp c)
    have e : H3.ref c = (presolve complete bs H).1.target c := (href c).trans (r2 c)
    refine ⟨?_, ?_, hval c⟩
    · rw [e, ← ht, ← (i2 c).1]; exact (r5 _).1
    · rw [e, ← ht, ← (i2 c).2]; exact (r5 _).2
  · intro b hb c hc
    rw [hval, hval]
    show H2.dict (H2.box (H2.ref c)).valRef = H2.dict (H2.box (H2.ref b.1)).valRef
    rw [show H2.ref c = H2.ref b.1 from i4 b hb c hc]

/-- dictionary object used by connection `c` -/
def dictOf (H : FlHeap ι K) (c : ι) : ℕ := (H.box (H.ref c)).valRef

theorem presolve_dictOf (complete : FluidBox K → List (FluidBox K) → PyRes (FluidBox K))
    (bs : List (ι × List ι)) (H : FlHeap ι K) (hn : (members bs).Nodup) (hinv : H.Inv)
    (ht : ∀ c ∈ members bs, H.tmp c = none) (hok : (presolve complete bs H).2 = none) :
    (∀ c, c ∉ members bs → (presolve complete bs H).1.dictOf c = H.dictOf c) ∧
    (∀ b ∈ bs, ∀ c ∈ b.1 :: b.2, (presolve complete bs H).1.dictOf c = H.dictOf b.1) := by
  induction bs generalizing H with
  | nil => exact ⟨fun _ _ => rfl, by simp⟩
  | cons b bs ih =>
    unfold members at hn ht
    rw [List.flatMap_cons, List.nodup_append] at hn
    obtain ⟨n1, n2, n3⟩ := hn
    unfold presolve at hok ⊢
    cases hb : H.presolveBranch complete b.1 b.2 with
    | mk H1 e =>
      rw [hb] at hok
      cases e with
      | some e => simp at hok
      | none =>
        simp only at hok ⊢
        obtain ⟨a1, a2, a3, a4, a5⟩ := presolveBranch_inv n1 hinv
          (fun c hc => ht c (by rw [List.flatMap_cons]; exact List.mem_append_left _ hc)) hb
        obtain ⟨e1, e2, e3, r, e4⟩ := presolveBranch_eff n1 hinv hb
        have hdis : ∀ c ∈ members bs, c ∉ b.1 :: b.2 := fun c hc h => n3 c h c hc rfl
        obtain ⟨i1, i2⟩ := ih H1 n2 a1 (by
          intro c hc
          rw [(a3 c (hdis c hc)).1]
          exact ht c (by rw [List.flatMap_cons]; exact List.mem_append_right _ hc)) hok
        have hbox : ∀ c, H1.dictOf c = (H.box (H1.ref c)).valRef := by
          intro c
          unfold dictOf
          rw [e4]
          split
          · rename_i h; rw [h]
          · rw [if_neg]
            rw [e1]
            split
            · exact (hinv.lt b.1).2.ne
            · exact (hinv.lt c).2.ne
        have hout : ∀ c, c ∉ b.1 :: b.2 → H1.dictOf c = H.dictOf c := by
          intro c hc; rw [hbox, (a3 c hc).2]; rfl
        constructor
        · intro c hc
          unfold members at hc
          rw [List.flatMap_cons, List.mem_append, not_or] at hc
          rw [i1 c hc.2, hout c hc.1]
        · intro b' hb' c hc
          rcases List.mem_cons.mp hb' with rfl | hb'
          · have h1 : c ∉ members bs := fun h => hdis c h hc
            rw [i1 c h1, hbox, e1]
            rcases List.mem_cons.mp hc with rfl | hc
            · rw [if_neg (List.nodup_cons.mp n1).1]; rfl
            · rw [if_pos hc]; rfl
          · rw [i2 b' hb' c hc]
            apply hout
            exact hdis _ (List.mem_flatMap.mpr ⟨b', hb', by simp⟩)

/-- C51, the part that holds: if no two connections shared a dictionary of mass fractions
before the calculation, connections of different branches do not share one afterwards.
Missing: connections of one branch keep sharing theirs, see below. -/
theorem C51_branches_separate_partial
    (complete : FluidBox K → List (FluidBox K) → PyRes (FluidBox K))
    (bs : List (ι × List ι)) (H : FlHeap ι K) (conns : List ι) (newDict : ℕ → Dict String K)
    (hn : (members bs).Nodup) (h0 : H.Separate) (hd : Function.Injective H.dictOf)
    (hok : (presolve complete bs H).2 = none)
    (b b' : ι × List ι) (hb : b ∈ bs) (hb' : b' ∈ bs) (hbb : b.1 ≠ b'.1)
    (c d : ι) (hc : c ∈ b.1 :: b.2) (hcd : d ∈ b'.1 :: b'.2) (f : String) (x : K) :
    let H3 := ((presolve complete bs H).1.solved newDict).reset conns
    (H3.assign c f x).val d = H3.val d := by
  intro H3
  obtain ⟨i1, i2, i3, i4, i5⟩ := presolve_inv complete bs H hn h0.inv (fun c _ => h0.tmp c) hok
  have hbase : ((presolve complete bs H).1.solved newDict).Base := ⟨i1.inj, i1.lt, i1.own⟩
  obtain ⟨r1, r2, r3, r4, r5, r6, r7⟩ := reset_eff conns hbase
  have hdo := (presolve_dictOf complete bs H hn h0.inv (fun c _ => h0.tmp c) hok).2
  have e1 : (H3.box (H3.ref c)).valRef = H.dictOf b.1 := (r7 c).trans (hdo b hb c hc)
  have e2 : (H3.box (H3.ref d)).valRef = H.dictOf b'.1 := (r7 d).trans (hdo b' hb' d hcd)
  show Function.update H3.dict (H3.box (H3.ref c)).valRef (Dict.set (H3.val c) f x)
    (H3.box (H3.ref d)).valRef = H3.dict (H3.box (H3.ref d)).valRef
  rw [e1, e2, Function.update_of_ne]
  intro h
  exact hbb (hd h).symm

/-- C51, refuted: after the calculation the connections of a former branch still share one
dictionary of mass fractions. A mass fraction written at one of them (by the user or, in
a modified network, by the solver) shows at the other one. -/
theorem C51_compositions_stay_shared
    (complete : FluidBox K → List (FluidBox K) → PyRes (FluidBox K))
    (bs : List (ι × List ι)) (H : FlHeap ι K) (conns : List ι) (newDict : ℕ → Dict String K)
    (hn : (members bs).Nodup) (h0 : H.Separate)
    (hok : (presolve complete bs H).2 = none)
    (b : ι × List ι) (hb : b ∈ bs) (c : ι) (hc : c ∈ b.2) (f : String) (x : K) :
    let H3 := ((presolve complete bs H).1.solved newDict).reset conns
    ((H3.assign c f x).val b.1).get? f = some x := by
  intro H3
  obtain ⟨i1, i2, i3, i4, i5⟩ := presolve_inv complete bs H hn h0.inv (fun c _ => h0.tmp c) hok
  have hbase : ((presolve complete bs H).1.solved newDict).Base := ⟨i1.inj, i1.lt, i1.own⟩
  obtain ⟨r1, r2, r3, r4, r5, r6, r7⟩ := reset_eff conns hbase
  have e : (H3.box (H3.ref c)).valRef = (H3.box (H3.ref b.1)).valRef := by
    rw [show (H3.box (H3.ref c)).valRef = _ from r7 c, show (H3.box (H3.ref b.1)).valRef = _ from r7 b.1]
    show ((presolve complete bs H).1.box ((presolve complete bs H).1.ref c)).valRef = _
    rw [i4 b hb c hc]; rfl
  show (Function.update H3.dict (H3.box (H3.ref c)).valRef (Dict.set (H3.val c) f x)
    (H3.box (H3.ref b.1)).valRef).get? f = some x
  rw [e, Function.update_self, Dict.get?_set, if_pos rfl]

/-- three connections, one branch, pure water specified at the first one -/
def exFl : FlHeap (Fin 3) ℚ where
  dict _ := [("water", 1)]
  box b := ⟨b, if b = 0 then ["water"] else [], []⟩
  ref c := c
  tmp _ := none
  next := 3

-- non-vacuity: the hypotheses of C18 and C51 hold for this network
example : exFl.Separate ∧ (members [((0 : Fin 3), [1, 2])]).Nodup ∧
    Function.Injective exFl.dictOf ∧
    (presolve (presolveFluid (1/1000000) ["water"]) [(0, [1, 2])] exFl).2 = none :=
  ⟨⟨fun a b h => Fin.ext h, fun _ => rfl, fun c => c.isLt⟩, by decide, fun a b h => Fin.ext h, by decide +kernel⟩

end FlHeap
end Tespy
