import Verif.Lemmas.Branches
import Verif.Spec.WrapperBranches
/-
C64: the search for the connections a fluid gets to.
-/
namespace Tespy

section search
variable {cs : List ConnObj} {comps : List CompObj}

theorem IsA.wpass {cp : CompObj} {k : Cls} (h : cp.IsA k) : cp.wpass = k.wpass := by
  unfold CompObj.wpass; rw [h.1]

theorem wpass_cases (k : Cls) :
    (k.wpass = .through → k.pass = .through) ∧
    (k.wpass = .spread → ∀ n, k.inlets n = ["in1"]) ∧
    (k.wpass = .join → ∀ n, k.outlets n = ["out1"]) ∧
    (k.wpass = .engine → k = .combustionEngine) ∧
    (k.wpass = .reactor → k.pass = .reactor) := by
  cases k <;> simp [Cls.wpass, Cls.pass, Cls.inlets, Cls.outlets]

/-- the outlet has no other inlet the fluid could come from -/
def Single (i : ConnObj) : Prop :=
  match i.target.wpass with
  | .node => False
  | .join => False
  | .engine => i.targetId = "in1" ∨ i.targetId = "in2"
  | _ => True

theorem Accepted.passes_unique (A : Accepted cs comps) {i j o : ConnObj} (hi : i ∈ cs) (hj : j ∈ cs)
    (hs : Single i) (h1 : FluidPasses i o) (h2 : FluidPasses j o) : i = j := by
  have htt : i.target = j.target := h1.1.symm.trans h2.1
  refine A.target_inj hi hj htt ?_
  obtain ⟨k, hk⟩ := A.classes _ (A.listed i hi).2
  unfold FluidPasses at h1 h2
  unfold Single at hs
  rw [← htt] at h2
  cases hp : i.target.wpass with
  | stop => simp [hp] at h1
  | node => simp [hp] at hs
  | join => simp [hp] at hs
  | through =>
    simp only [hp] at h1 h2
    obtain ⟨_, n1, a1, b1⟩ := h1
    obtain ⟨_, n2, a2, b2⟩ := h2
    rw [a1, a2, toString_inj (b1.symm.trans b2)]
  | spread =>
    rw [IsA.wpass hk] at hp
    obtain ⟨_, n, e1, _⟩ := hk
    have d1 := (A.declared i hi).2
    have d2 := (A.declared j hj).2
    rw [← htt] at d2
    rw [e1, (wpass_cases k).2.1 hp] at d1 d2
    simp only [List.mem_singleton] at d1 d2
    rw [d1, d2]
  | engine =>
    simp only [hp] at h1 h2 hs
    have n12 : ("out1" : String) ≠ "out2" := by decide +kernel
    have n13 : ("out1" : String) ≠ "out3" := by decide +kernel
    have n23 : ("out2" : String) ≠ "out3" := by decide +kernel
    have m13 : ("in1" : String) ≠ "in3" := by decide +kernel
    have m14 : ("in1" : String) ≠ "in4" := by decide +kernel
    have m23 : ("in2" : String) ≠ "in3" := by decide +kernel
    have m24 : ("in2" : String) ≠ "in4" := by decide +kernel
    rcases h1.2 with ⟨a, b⟩ | ⟨a, b⟩ | ⟨a, b⟩
    · rw [b] at h2; rw [a]; rcases h2.2 with ⟨c, _⟩ | ⟨_, d⟩ | ⟨_, d⟩
      · exact c.symm
      · exact absurd d n12
      · exact absurd d n13
    · rw [b] at h2; rw [a]; rcases h2.2 with ⟨_, d⟩ | ⟨c, _⟩ | ⟨_, d⟩
      · exact absurd d.symm n12
      · exact c.symm
      · exact absurd d n23
    · exfalso
      rcases hs with hs | hs <;> rw [hs] at a <;> rcases a with a | a
      · exact m13 a
      · exact m14 a
      · exact m23 a
      · exact m24 a
  | reactor => simp only [hp] at h1 h2; rw [h1.2.1, h2.2.1]

theorem Accepted.fluidStart_not_passed (A : Accepted cs comps) {i s : ConnObj} (hi : i ∈ cs)
    (hs : FluidStart s) : ¬ FluidPasses i s := by
  intro h
  obtain ⟨k, hk⟩ := A.classes _ (A.listed i hi).2
  have hc := h.1
  unfold FluidStart at hs
  rw [hc, hk.1] at hs
  have h2 := h.2
  rw [IsA.wpass hk] at h2
  have n13 : ("out1" : String) ≠ "out3" := by decide +kernel
  have n12 : ("out1" : String) ≠ "out2" := by decide +kernel
  cases k <;> simp only [Cls.wpass] at h2 hs
  · obtain ⟨_, n, e, _⟩ := hk
    have := (A.declared i hi).2
    rw [e] at this; simp [Cls.inlets] at this
  · exact n12 (h2.2.symm.trans hs)
  · rcases hs with hs | hs
    · exact n12 (h2.2.symm.trans hs)
    · exact n13 (h2.2.symm.trans hs)

/-- position of a combustion inlet of an engine -/
theorem Accepted.engine_inlet (A : Accepted cs comps) {i : ConnObj} (hi : i ∈ cs)
    (hp : i.target.wpass = .engine) :
    (i ∈ (inl cs i.target).drop 2 ∧ (i.targetId = "in3" ∨ i.targetId = "in4") ∧
      ∃ o ∈ cs, outAt cs i.target 2 = .ok o ∧ ∀ o' ∈ cs, FluidPasses i o' ↔ o' = o) ∨
    (i ∉ (inl cs i.target).drop 2 ∧ (i.targetId = "in1" ∨ i.targetId = "in2") ∧
      ∃ o ∈ cs, paired cs i = .ok o ∧ ∀ o' ∈ cs, FluidPasses i o' ↔ o' = o) := by
  have ht := (A.listed i hi).2
  obtain ⟨k, hk⟩ := A.classes _ ht
  have hp' := hp
  rw [IsA.wpass hk] at hp
  obtain rfl := (wpass_cases k).2.2.2.1 hp
  obtain ⟨e1, e2⟩ := A.engine_ids ht hk
  have him := mem_inl.mpr ⟨hi, rfl⟩
  have hd := List.mem_map_of_mem (f := ConnObj.targetId) him
  rw [e1] at hd
  have hn : ["in1", "in2", "in3", "in4"].Nodup := by decide +kernel
  have hdrop : ∀ m, (inl cs i.target)[m]? = some i → (i ∈ (inl cs i.target).drop 2 ↔ 2 ≤ m) := by
    intro m hm
    rw [List.mem_iff_getElem?]
    constructor
    · rintro ⟨j, hj⟩
      rw [List.getElem?_drop] at hj
      have a := idxOf_of_getElem? (A.inl_nodup _) hj
      have b := idxOf_of_getElem? (A.inl_nodup _) hm
      omega
    · intro h2; exact ⟨m - 2, by rw [List.getElem?_drop]; rw [show 2 + (m - 2) = m by omega]; exact hm⟩
  have fin : ∀ (x : String) (o : ConnObj) (_ : o ∈ cs) (_ : o.source = i.target) (_ : o.sourceId = x),
      (∀ o' : ConnObj, FluidPasses i o' ↔ o'.source = i.target ∧ o'.sourceId = x) →
      ∀ o' ∈ cs, FluidPasses i o' ↔ o' = o := by
    intro x o h1 h2 h3 h o' ho'
    rw [h]
    constructor
    · rintro ⟨a, b⟩; exact A.source_inj ho' h1 (a.trans h2.symm) (b.trans h3.symm)
    · rintro rfl; exact ⟨h2, h3⟩
  have n12 : ("in1" : String) ≠ "in2" := by decide +kernel
  have n13 : ("in1" : String) ≠ "in3" := by decide +kernel
  have n14 : ("in1" : String) ≠ "in4" := by decide +kernel
  have n23 : ("in2" : String) ≠ "in3" := by decide +kernel
  have n24 : ("in2" : String) ≠ "in4" := by decide +kernel
  have key : ∀ m, (["in1", "in2", "in3", "in4"] : List String)[m]? = some i.targetId → m < 2 →
      ∀ x, (["out1", "out2", "out3"] : List String)[m]? = some x →
      (∀ o' : ConnObj, FluidPasses i o' ↔ o'.source = i.target ∧ o'.sourceId = x) →
      i ∉ (inl cs i.target).drop 2 ∧
      ∃ o ∈ cs, paired cs i = .ok o ∧ ∀ o' ∈ cs, FluidPasses i o' ↔ o' = o := by
    intro m hm hlt x hx h
    have hg := getElem?_of_ids e1 hn him hm
    obtain ⟨c, hc, hcx⟩ := exists_at e2 hx
    have hcm := mem_outl.mp (List.mem_of_getElem? hc)
    exact ⟨by rw [hdrop m hg]; omega, c, hcm.1, A.paired_at hi m hg hc, fin x c hcm.1 hcm.2 hcx h⟩
  have key' : ∀ m, (["in1", "in2", "in3", "in4"] : List String)[m]? = some i.targetId → 2 ≤ m →
      (∀ o' : ConnObj, FluidPasses i o' ↔ o'.source = i.target ∧ o'.sourceId = "out3") →
      i ∈ (inl cs i.target).drop 2 ∧
      ∃ o ∈ cs, outAt cs i.target 2 = .ok o ∧ ∀ o' ∈ cs, FluidPasses i o' ↔ o' = o := by
    intro m hm hle h
    have hg := getElem?_of_ids e1 hn him hm
    obtain ⟨c, hc, hcx⟩ := exists_at e2 (k := 2) (x := "out3") rfl
    have hcm := mem_outl.mp (List.mem_of_getElem? hc)
    exact ⟨(hdrop m hg).mpr hle, c, hcm.1, by unfold outAt; rw [hc], fin _ c hcm.1 hcm.2 hcx h⟩
  simp only [List.mem_cons, List.not_mem_nil, or_false] at hd
  rcases hd with hd | hd | hd | hd
  · obtain ⟨a, b⟩ := key 0 (by rw [hd]; rfl) (by omega) "out1" rfl
      (by intro o'; unfold FluidPasses; simp only [hp', hd, n12, n13, n14]; simp)
    exact .inr ⟨a, .inl hd, b⟩
  · obtain ⟨a, b⟩ := key 1 (by rw [hd]; rfl) (by omega) "out2" rfl
      (by intro o'; unfold FluidPasses; simp only [hp', hd, n12.symm, n23, n24]; simp)
    exact .inr ⟨a, .inr hd, b⟩
  · obtain ⟨a, b⟩ := key' 2 (by rw [hd]; rfl) (by omega)
      (by intro o'; unfold FluidPasses; simp only [hp', hd, n13.symm, n23.symm]; simp)
    exact .inl ⟨a, .inl hd, b⟩
  · obtain ⟨a, b⟩ := key' 3 (by rw [hd]; rfl) (by omega)
      (by intro o'; unfold FluidPasses; simp only [hp', hd, n14.symm, n24.symm]; simp)
    exact .inl ⟨a, .inr hd, b⟩

theorem Accepted.through_outlet (A : Accepted cs comps) {i : ConnObj} (hi : i ∈ cs)
    (hp : i.target.wpass = .through) :
    ∃ o ∈ cs, paired cs i = .ok o ∧ ∀ o' ∈ cs, FluidPasses i o' ↔ o' = o := by
  obtain ⟨k, hk⟩ := A.classes _ (A.listed i hi).2
  have hp2 : i.target.pass = .through := by
    rw [IsA.pass hk]; rw [IsA.wpass hk] at hp; exact (wpass_cases k).1 hp
  obtain ⟨o, num, h1, h2, h3, h4, h5⟩ := A.through_paired hi hp2
  refine ⟨o, h2, h1, fun o' ho' => ?_⟩
  unfold FluidPasses
  simp only [hp]
  constructor
  · rintro ⟨b, num', c, d⟩
    refine A.source_inj ho' h2 (b.trans h3.symm) ?_
    rw [d, h5, toString_inj (h4.symm.trans c)]
  · rintro rfl; exact ⟨h3, num, h4, h5⟩

theorem Accepted.reactor_outlet (A : Accepted cs comps) {i : ConnObj} (hi : i ∈ cs)
    (hp : i.target.wpass = .reactor) :
    ((inl cs i.target)[0]? = some i ∧
      ∃ o ∈ cs, paired cs i = .ok o ∧ ∀ o' ∈ cs, FluidPasses i o' ↔ o' = o) ∨
    ((inl cs i.target)[0]? ≠ some i ∧ ∀ o, ¬ FluidPasses i o) := by
  have ht := (A.listed i hi).2
  obtain ⟨k, hk⟩ := A.classes _ ht
  have hp2 : i.target.pass = .reactor := by
    rw [IsA.pass hk]; rw [IsA.wpass hk] at hp; exact (wpass_cases k).2.2.2.2 hp
  obtain ⟨m, m', e1, e2, n1, n2, z1, z2⟩ := A.reactor_ids ht hp2
  have him := mem_inl.mpr ⟨hi, rfl⟩
  obtain ⟨o', ho', hox⟩ := exists_at e2 z2
  have hom := mem_outl.mp (List.mem_of_getElem? ho')
  by_cases h0 : (inl cs i.target)[0]? = some i
  · refine .inl ⟨h0, o', hom.1, A.paired_at hi 0 h0 ho', fun o ho => ?_⟩
    obtain ⟨c, hc, hcx⟩ := exists_at e1 z1
    rw [h0] at hc; injection hc with hc; subst hc
    unfold FluidPasses
    simp only [hp]
    constructor
    · rintro ⟨b, _, d⟩; exact A.source_inj ho hom.1 (b.trans hom.2.symm) (d.trans hox.symm)
    · rintro rfl; exact ⟨hom.2, hcx, hox⟩
  · refine .inr ⟨h0, fun o h => ?_⟩
    unfold FluidPasses at h
    simp only [hp] at h
    exact h0 (getElem?_of_ids e1 n1 him (by rw [z1, h.2.1]))

theorem Accepted.join_outlet (A : Accepted cs comps) {cp : CompObj} (h : cp ∈ comps)
    (hp : cp.wpass = .join) :
    ∃ o ∈ cs, outAt cs cp 0 = .ok o ∧ o.source = cp ∧ ∀ o' ∈ cs, o'.source = cp → o' = o := by
  obtain ⟨k, hk⟩ := A.classes _ h
  rw [IsA.wpass hk] at hp
  obtain ⟨_, n, h1, h2⟩ := hk
  rw [(wpass_cases k).2.2.1 hp] at h2
  have e := A.outl_ids h (by rw [h2]; decide +kernel)
  rw [h2] at e
  obtain ⟨o, ho, hox⟩ := exists_at e (k := 0) (x := "out1") rfl
  have hom := mem_outl.mp (List.mem_of_getElem? ho)
  refine ⟨o, hom.1, by unfold outAt; rw [ho], hom.2, fun o' ho' hs => ?_⟩
  have hm := List.mem_map_of_mem (f := ConnObj.sourceId) (mem_outl.mpr ⟨ho', hs⟩)
  rw [e] at hm
  simp only [List.mem_singleton] at hm
  exact A.source_inj ho' hom.1 (hs.trans hom.2.symm) (hm.trans hox.symm)

/-- What holds for a wrapper branch begun at `s` all the time. -/
structure WInv (cs : List ConnObj) (s : ConnObj) (b : WBranch) : Prop where
  nodup : b.conns.Nodup
  sub : ∀ c ∈ b.conns, c ∈ cs
  reach : ∀ c ∈ b.conns, FluidReaches cs s c
  pred : ∀ c ∈ b.conns, c = s ∨ ∃ p ∈ b.conns, FluidPasses p c
  guard : ∀ cp : CompObj, cp.wpass = .node ∨ cp.wpass = .join ∨ cp.wpass = .engine → cp ∉ b.comps →
    ∀ o ∈ b.conns, o.source ≠ cp
  engine : ∀ cp ∈ b.comps, cp.wpass = .engine → ∃ o ∈ b.conns, o.source = cp
  join : ∀ cp ∈ b.comps, cp.wpass = .join → ∀ o ∈ cs, o.source = cp → o ∈ b.conns

/-- All outlets `c` passes its fluid to are collected, up to loops back to the nodes in `ex` (which
are being visited) and engines which were visited for another inlet. -/
def Closed (cs : List ConnObj) (ex : List CompObj) (conns : List ConnObj) (c : ConnObj) : Prop :=
  ∀ o ∈ cs, FluidPasses c o → o ∈ conns ∨ (c.target.wpass = .node ∧ c.target ∈ ex) ∨
    (c.target.wpass = .engine ∧ (c.targetId = "in3" ∨ c.targetId = "in4") ∧
      ∃ o' ∈ conns, o'.source = c.target)

theorem Closed.mono {ex ex' : List CompObj} {l l' : List ConnObj} {c : ConnObj}
    (h : Closed cs ex l c) (hl : l ⊆ l')
    (he : ∀ cp ∈ ex, cp.wpass = .node → cp ∈ ex' ∨ ∀ o ∈ cs, o.source = cp → o ∈ l') :
    Closed cs ex' l' c := by
  intro o ho hp
  rcases h o ho hp with h | ⟨h1, h2⟩ | ⟨h1, h2, o', h3, h4⟩
  · exact .inl (hl h)
  · rcases he _ h2 h1 with h | h
    · exact .inr (.inl ⟨h1, h⟩)
    · exact .inl (h o ho hp.1)
  · exact .inr (.inr ⟨h1, h2, o', hl h3, h4⟩)

/-- What a walk from the last connection `i` of `b` adds. -/
structure WPost (cs : List ConnObj) (s : ConnObj) (b : WBranch) (i : ConnObj) (b' : WBranch)
    (new : List ConnObj) : Prop where
  conns : b'.conns = b.conns ++ new
  comps : b.comps ⊆ b'.comps
  inv : WInv cs s b'
  preds : ∀ c ∈ new, ∃ p ∈ i :: new, FluidPasses p c ∧ (Single p ∨ c.source ∉ b.comps)
  done : ∀ cp ∈ b'.comps, cp.wpass = .node → cp ∈ b.comps ∨ ∀ o ∈ cs, o.source = cp → o ∈ b'.conns
  closed : ∀ c ∈ i :: new, Closed cs b.comps b'.conns c

/-- What the loop over the outlets `os` adds. -/
structure LPost (cs : List ConnObj) (s : ConnObj) (b : WBranch) (cps : List CompObj)
    (os : List ConnObj) (b' : WBranch) (new : List ConnObj) : Prop where
  conns : b'.conns = b.conns ++ new
  comps : b.comps ⊆ b'.comps
  sub : os ⊆ new
  inv : WInv cs s b'
  preds : ∀ c ∈ new, c ∈ os ∨ ∃ p ∈ new, FluidPasses p c ∧ (Single p ∨ c.source ∉ b.comps)
  done : ∀ cp ∈ b'.comps, cp.wpass = .node → cp ∈ b.comps ++ cps ∨ ∀ o ∈ cs, o.source = cp → o ∈ b'.conns
  closed : ∀ c ∈ new, Closed cs (b.comps ++ cps) b'.conns c

/-- the specification of a walk with `n` steps left -/
def WGo (cs : List ConnObj) (s : ConnObj) (n : ℕ) : Prop :=
  ∀ (b : WBranch) (i : ConnObj), WInv cs s b → b.conns.getLast? = some i →
    (Single i → ∀ o, FluidPasses i o → o ∉ b.conns) → cs.length < n + b.conns.length →
    ∃ b' new, wrapWalk cs n b = .ok b' ∧ WPost cs s b i b' new

theorem wLoop_spec (A : Accepted cs comps) {s : ConnObj} (hst : FluidStart s) {n : ℕ}
    (go : WGo cs s n) (i : ConnObj) (cps : List CompObj) (hcps : cps = [] ∧ i.target.wpass = .spread ∨
      cps = [i.target]) :
    ∀ (os : List ConnObj) (b : WBranch), WInv cs s b → i ∈ b.conns → os.Nodup →
      (∀ o ∈ os, o ∈ cs ∧ FluidPasses i o ∧ o ∉ b.conns) →
      (i.target.wpass = .join → ∀ o ∈ cs, o.source = i.target → o ∈ b.conns ∨ os = [o]) →
      cs.length ≤ n + b.conns.length →
      ∃ b' new, wLoop (wrapWalk cs n) cps os b = .ok b' ∧ LPost cs s b cps os b' new := by
  intro os
  induction os with
  | nil =>
    intro b hI _ _ _ _ _
    refine ⟨b, [], rfl, by simp, fun _ h => h, by simp, hI, by simp, ?_, by simp⟩
    intro cp h _; exact .inl (List.mem_append_left _ h)
  | cons o os ih =>
    intro b hI hib hnd hos hjoin hfuel
    obtain ⟨hoc, hpo, hob⟩ := hos o (by simp)
    have hic := hI.sub i hib
    -- the branch with the outlet added
    have hI1 : WInv cs s (b.push o cps) := by
      have hmem : ∀ {c}, c ∈ (b.push o cps).conns ↔ c ∈ b.conns ∨ c = o := by simp [WBranch.push]
      refine ⟨?_, ?_, ?_, ?_, ?_, ?_, ?_⟩
      · simp only [WBranch.push]
        rw [List.nodup_append]
        exact ⟨hI.nodup, by simp, by rintro x hx y hy rfl; simp at hy; subst hy; exact hob hx⟩
      · intro c hc; rcases hmem.mp hc with h | rfl
        · exact hI.sub c h
        · exact hoc
      · intro c hc; rcases hmem.mp hc with h | rfl
        · exact hI.reach c h
        · exact (hI.reach i hib).next hic hoc hpo
      · intro c hc; rcases hmem.mp hc with h | rfl
        · rcases hI.pred c h with h | ⟨p, h1, h2⟩
          · exact .inl h
          · exact .inr ⟨p, hmem.mpr (.inl h1), h2⟩
        · exact .inr ⟨i, hmem.mpr (.inl hib), hpo⟩
      · intro cp hcp hn c hc
        have hn' : cp ∉ b.comps ∧ cp ∉ cps := by simpa [WBranch.push] using hn
        rcases hmem.mp hc with h | rfl
        · exact hI.guard cp hcp hn'.1 c h
        · intro he
          rw [hpo.1] at he
          rcases hcps with ⟨_, h⟩ | h
          · rw [← he, h] at hcp; simp at hcp
          · rw [h, he] at hn'; simp at hn'
      · intro cp hcp he
        simp only [WBranch.push, List.mem_append] at hcp
        rcases hcp with h | h
        · obtain ⟨c, h1, h2⟩ := hI.engine cp h he
          exact ⟨c, hmem.mpr (.inl h1), h2⟩
        · rcases hcps with ⟨h', _⟩ | h'
          · rw [h'] at h; simp at h
          · rw [h'] at h; simp only [List.mem_singleton] at h
            exact ⟨o, hmem.mpr (.inr rfl), hpo.1.trans h.symm⟩
      · intro cp hcp hj c hc hcs
        simp only [WBranch.push, List.mem_append] at hcp
        rcases hcp with h | h
        · exact hmem.mpr (.inl (hI.join cp h hj c hc hcs))
        · rcases hcps with ⟨h', _⟩ | h'
          · rw [h'] at h; simp at h
          · rw [h'] at h; simp only [List.mem_singleton] at h; subst h
            rcases hjoin hj c hc hcs with h | h
            · exact hmem.mpr (.inl h)
            · simp only [List.cons.injEq] at h
              exact hmem.mpr (.inr h.1.symm)
    have hlast : (b.push o cps).conns.getLast? = some o := by simp [WBranch.push]
    have hfresh : Single o → ∀ o', FluidPasses o o' → o' ∉ (b.push o cps).conns := by
      intro hso o' hpo' hmem
      rcases hI1.pred o' hmem with rfl | ⟨p, h1, h2⟩
      · exact A.fluidStart_not_passed hoc hst hpo'
      · have hpc := hI1.sub p h1
        have := A.passes_unique hoc hpc hso hpo' h2
        subst this
        -- `o'` was collected after `o`: it is `o` itself
        have hmem' : o' ∈ b.conns ∨ o' = o := by simpa [WBranch.push] using hmem
        rcases hmem' with h | rfl
        · rcases hI.pred o' h with rfl | ⟨p', h1', h2'⟩
          · exact A.fluidStart_not_passed hoc hst hpo'
          · have := A.passes_unique hoc (hI.sub p' h1') hso hpo' h2'
            subst this
            exact hob h1'
        · have := A.passes_unique hoc hic hso hpo' hpo
          subst this
          exact hob hib
    obtain ⟨b2, new1, hw, hP⟩ := go (b.push o cps) o hI1 hlast hfresh
      (by simp only [WBranch.push, List.length_append, List.length_singleton]; omega)
    have hc2 : b2.conns = b.conns ++ o :: new1 := by
      rw [hP.conns]; simp [WBranch.push]
    have hnd2 : (b.conns ++ o :: new1).Nodup := hc2 ▸ hP.inv.nodup
    have hcomps : b.comps ⊆ b2.comps := fun x hx =>
      hP.comps (by simp only [WBranch.push, List.mem_append]; exact .inl hx)
    obtain ⟨b3, new2, hl, hL⟩ := ih b2 hP.inv (by rw [hc2]; exact List.mem_append_left _ hib)
      (List.nodup_cons.mp hnd).2
      (by
        intro o2 ho2
        obtain ⟨h1, h2, h3⟩ := hos o2 (List.mem_cons_of_mem _ ho2)
        refine ⟨h1, h2, ?_⟩
        rw [hc2]
        intro hm
        rcases List.mem_append.mp hm with h | h
        · exact h3 h
        rcases List.mem_cons.mp h with rfl | h
        · exact (List.nodup_cons.mp hnd).1 ho2
        · obtain ⟨p, hp1, hp2, hp3⟩ := hP.preds o2 h
          have hpm : p ∈ b2.conns := by rw [hc2]; exact List.mem_append_right _ hp1
          have hpc := hP.inv.sub p hpm
          have hne : p ≠ i := by
            rintro rfl
            exact (List.nodup_append.mp hnd2).2.2 p hib p hp1 rfl
          rcases hp3 with hp3 | hp3
          · exact hne (A.passes_unique hpc hic hp3 hp2 h2)
          · by_cases hsi : Single i
            · exact hne (A.passes_unique hic hpc hsi h2 hp2).symm
            · rcases hcps with ⟨_, hcp⟩ | hcp
              · exact hsi (by unfold Single; rw [hcp]; trivial)
              · apply hp3
                rw [h2.1, hcp]; simp [WBranch.push])
      (by
        intro hj c hc hcs
        rcases hjoin hj c hc hcs with h | h
        · left; rw [hc2]; exact List.mem_append_left _ h
        · simp only [List.cons.injEq] at h
          left; rw [hc2, h.1]; simp)
      (by rw [hc2]; simp only [List.length_append, List.length_cons]; omega)
    refine ⟨b3, o :: new1 ++ new2, ?_, ?_⟩
    · simp only [wLoop, hw, hl]
    · have hc3 : b3.conns = b.conns ++ (o :: new1 ++ new2) := by rw [hL.conns, hc2]; simp
      have hsub23 : b2.conns ⊆ b3.conns := by rw [hL.conns]; exact List.subset_append_left _ _
      refine ⟨hc3, fun x hx => hL.comps (hcomps hx), ?_, hL.inv, ?_, ?_, ?_⟩
      · intro x hx
        rcases List.mem_cons.mp hx with rfl | hx
        · simp
        · exact List.mem_append_right _ (hL.sub hx)
      · intro c hc
        rcases List.mem_append.mp hc with h | h
        · rcases List.mem_cons.mp h with rfl | h
          · left; simp
          · obtain ⟨p, h1, h2, h3⟩ := hP.preds c h
            refine .inr ⟨p, List.mem_append_left _ h1, h2, h3.imp id (fun h3 hx => h3 ?_)⟩
            simp only [WBranch.push, List.mem_append]; exact .inl hx
        · rcases hL.preds c h with h | ⟨p, h1, h2, h3⟩
          · exact .inl (List.mem_cons_of_mem _ h)
          · exact .inr ⟨p, List.mem_append_right _ h1, h2, h3.imp id (fun h3 hx => h3 (hcomps hx))⟩
      · intro cp hcp hno
        rcases hL.done cp hcp hno with h | h
        · rcases List.mem_append.mp h with h | h
          · rcases hP.done cp h hno with h | h
            · exact .inl h
            · exact .inr (fun c hc hcs => hsub23 (h c hc hcs))
          · exact .inl (List.mem_append_right _ h)
        · exact .inr h
      · intro c hc
        rcases List.mem_append.mp hc with h | h
        · exact (hP.closed c h).mono hsub23 (fun cp hcp _ => .inl hcp)
        · refine (hL.closed c h).mono (fun _ h => h) (fun cp hcp hno => ?_)
          rcases List.mem_append.mp hcp with h | h
          · rcases hP.done cp h hno with h | h
            · exact .inl h
            · exact .inr (fun c hc hcs => hsub23 (h c hc hcs))
          · exact .inl (List.mem_append_right _ h)

theorem wOn_eq (go : WBranch → PyRes WBranch) (cp : CompObj) (b : WBranch) (o : ConnObj) :
    wOn go cp b (.ok o) = wLoop go [cp] [o] b := by
  simp only [wOn, wLoop]
  cases go (b.push o [cp]) <;> rfl

theorem getLast?_mem {l : List ConnObj} {i : ConnObj} (h : l.getLast? = some i) : i ∈ l :=
  List.mem_of_getLast? h

/-- a component appended which is not guarded -/
theorem WInv.addComp {s : ConnObj} {b : WBranch} (h : WInv cs s b) {cp : CompObj}
    (h1 : cp.wpass ≠ .engine) (h2 : cp.wpass ≠ .join) : WInv cs s ⟨b.conns, b.comps ++ [cp]⟩ := by
  refine ⟨h.nodup, h.sub, h.reach, h.pred, ?_, ?_, ?_⟩
  · intro c hc hn; exact h.guard c hc (fun hm => hn (List.mem_append_left _ hm))
  · intro c hc he
    rcases List.mem_append.mp hc with hc | hc
    · exact h.engine c hc he
    · simp only [List.mem_singleton] at hc; subst hc; exact absurd he h1
  · intro c hc he
    rcases List.mem_append.mp hc with hc | hc
    · exact h.join c hc he
    · simp only [List.mem_singleton] at hc; subst hc; exact absurd he h2

theorem wGo (A : Accepted cs comps) {s : ConnObj} (hst : FluidStart s) (n : ℕ) : WGo cs s n := by
  induction n with
  | zero =>
    intro b i hI _ _ hf
    have := (hI.nodup.subperm (fun c hc => hI.sub c hc)).length_le
    omega
  | succ n ih =>
    intro b i hI hlast hfresh hf
    have hib := getLast?_mem hlast
    have hic := hI.sub i hib
    have hic' := (A.listed i hic).2
    -- a branch that ends here
    have stopped : (∀ o ∈ cs, ¬ FluidPasses i o) → i.target.wpass ≠ .engine → i.target.wpass ≠ .join →
        i.target.wpass ≠ .node →
        WPost cs s b i ⟨b.conns, b.comps ++ [i.target]⟩ [] := by
      intro h1 h2 h3 h4
      refine ⟨by simp, List.subset_append_left _ _, hI.addComp h2 h3, by simp, ?_, ?_⟩
      · intro cp hcp hno
        rcases List.mem_append.mp hcp with h | h
        · exact .inl h
        · simp only [List.mem_singleton] at h; subst h; exact absurd hno h4
      · intro c hc; simp only [List.mem_singleton] at hc; subst hc
        intro o ho hp; exact absurd hp (h1 o ho)
    -- a branch that has been here before
    have again : Closed cs b.comps b.conns i → WPost cs s b i b [] := by
      intro h
      refine ⟨by simp, fun _ h => h, hI, by simp, fun cp h _ => .inl h, ?_⟩
      intro c hc; simp only [List.mem_singleton] at hc; subst hc; exact h
    -- a branch that goes on through one outlet
    have single : ∀ o ∈ cs, (∀ o' ∈ cs, FluidPasses i o' ↔ o' = o) → o ∉ b.conns →
        i.target.wpass ≠ .node →
        (i.target.wpass = .join → ∀ o' ∈ cs, o'.source = i.target → o' = o) →
        (Single i ∨ i.target ∉ b.comps) →
        ∃ b' new, wOn (wrapWalk cs n) i.target b (.ok o) = .ok b' ∧ WPost cs s b i b' new := by
      intro o ho hiff hob hno hj hgu
      have hpo := (hiff o ho).mpr rfl
      obtain ⟨b', new, h1, h2⟩ := wLoop_spec A hst ih i [i.target] (.inr rfl) [o] b hI hib (by simp)
        (by intro o' h; simp only [List.mem_singleton] at h; subst h; exact ⟨ho, hpo, hob⟩)
        (fun hjj o' ho' hs => .inr (by rw [hj hjj o' ho' hs])) (by omega)
      refine ⟨b', new, by rw [wOn_eq]; exact h1, h2.conns, h2.comps, h2.inv, ?_, ?_, ?_⟩
      · intro c hc
        rcases h2.preds c hc with h | ⟨p, hp1, hp2, hp3⟩
        · simp only [List.mem_singleton] at h; subst h
          exact ⟨i, by simp, hpo, hgu.imp id (fun h => hpo.1 ▸ h)⟩
        · exact ⟨p, List.mem_cons_of_mem _ hp1, hp2, hp3⟩
      · intro cp hcp hn
        rcases h2.done cp hcp hn with h | h
        · rcases List.mem_append.mp h with h | h
          · exact .inl h
          · simp only [List.mem_singleton] at h; subst h; exact absurd hn hno
        · exact .inr h
      · intro c hc
        rcases List.mem_cons.mp hc with rfl | hc
        · intro o' ho' hp'
          rw [(hiff o' ho').mp hp']
          exact .inl (by rw [h2.conns]; exact List.mem_append_right _ (h2.sub (by simp)))
        · refine (h2.closed c hc).mono (fun _ h => h) (fun cp hcp hn => ?_)
          rcases List.mem_append.mp hcp with h | h
          · exact .inl h
          · simp only [List.mem_singleton] at h; subst h; exact absurd hn hno
    unfold wrapWalk
    simp only [hlast]
    cases hp : i.target.wpass with
    | stop =>
      exact ⟨_, [], rfl, stopped (by intro o _ h; unfold FluidPasses at h; simp [hp] at h)
        (by simp [hp]) (by simp [hp]) (by simp [hp])⟩
    | through =>
      obtain ⟨o, ho, hpa, hiff⟩ := A.through_outlet hic hp
      have hsi : Single i := by unfold Single; rw [hp]; trivial
      simp only [hpa]
      exact single o ho hiff (hfresh hsi o ((hiff o ho).mpr rfl)) (by simp [hp]) (by simp [hp]) (.inl hsi)
    | reactor =>
      have hsi : Single i := by unfold Single; rw [hp]; trivial
      rcases A.reactor_outlet hic hp with ⟨h0, o, ho, hpa, hiff⟩ | ⟨h0, hno⟩
      · simp only [h0, hpa, if_true]
        exact single o ho hiff (hfresh hsi o ((hiff o ho).mpr rfl)) (by simp [hp]) (by simp [hp]) (.inl hsi)
      · simp only [h0, if_false]
        exact ⟨_, [], rfl, stopped (fun o _ => hno o) (by simp [hp]) (by simp [hp]) (by simp [hp])⟩
    | engine =>
      rcases A.engine_inlet hic hp with ⟨h0, hid, o, ho, hpa, hiff⟩ | ⟨h0, hid, o, ho, hpa, hiff⟩
      · simp only [h0, if_true]
        by_cases hg : i.target ∈ b.comps
        · simp only [hg, if_true]
          refine ⟨_, [], rfl, again ?_⟩
          intro o' _ _
          exact .inr (.inr ⟨hp, hid, hI.engine _ hg hp⟩)
        · simp only [hg, if_false, hpa]
          refine single o ho hiff (fun hm => ?_) (by simp [hp]) (by simp [hp]) (.inr hg)
          exact hI.guard _ (.inr (.inr hp)) hg o hm ((hiff o ho).mpr rfl).1
      · simp only [h0, if_false, hpa]
        have hsi : Single i := by unfold Single; rw [hp]; exact hid
        exact single o ho hiff (hfresh hsi o ((hiff o ho).mpr rfl)) (by simp [hp]) (by simp [hp]) (.inl hsi)
    | join =>
      obtain ⟨o, ho, hpa, hos, huni⟩ := A.join_outlet hic' hp
      by_cases hg : i.target ∈ b.comps
      · simp only [hg, if_true]
        refine ⟨_, [], rfl, again ?_⟩
        intro o' ho' hp'
        exact .inl (hI.join _ hg hp o' ho' hp'.1)
      · simp only [hg, if_false, hpa]
        refine single o ho (fun o' ho' => ?_) (fun hm => hI.guard _ (.inr (.inl hp)) hg o hm hos)
          (by simp [hp]) (fun _ => huni) (.inr hg)
        unfold FluidPasses
        simp only [hp, and_true]
        exact ⟨fun h => huni o' ho' h, fun h => h ▸ hos⟩
    | spread =>
      have hsi : Single i := by unfold Single; rw [hp]; trivial
      have hpass : ∀ o, FluidPasses i o ↔ o.source = i.target := by
        intro o; unfold FluidPasses; simp [hp]
      obtain ⟨b', new, h1, h2⟩ := wLoop_spec A hst ih i [] (.inl ⟨rfl, hp⟩) (outl cs i.target)
        ⟨b.conns, b.comps ++ [i.target]⟩ (hI.addComp (by simp [hp]) (by simp [hp])) hib (A.outl_nodup _)
        (by intro o h; obtain ⟨ho, hs⟩ := mem_outl.mp h
            exact ⟨ho, (hpass o).mpr hs, hfresh hsi o ((hpass o).mpr hs)⟩)
        (by simp [hp]) (by simp only; omega)
      have hnode : ∀ cp ∈ (b.comps ++ [i.target]) ++ [], cp.wpass = .node → cp ∈ b.comps := by
        intro cp hcp hn
        simp only [List.append_nil, List.mem_append, List.mem_singleton] at hcp
        rcases hcp with h | h
        · exact h
        · subst h; rw [hp] at hn; cases hn
      refine ⟨b', new, h1, h2.conns, fun x hx => h2.comps (List.mem_append_left _ hx), h2.inv, ?_, ?_, ?_⟩
      · intro c hc
        rcases h2.preds c hc with h | ⟨p, hp1, hp2, hp3⟩
        · exact ⟨i, by simp, (hpass c).mpr (mem_outl.mp h).2, .inl hsi⟩
        · exact ⟨p, List.mem_cons_of_mem _ hp1, hp2,
            hp3.imp id (fun h hx => h (List.mem_append_left _ hx))⟩
      · intro cp hcp hn
        rcases h2.done cp hcp hn with h | h
        · exact .inl (hnode cp h hn)
        · exact .inr h
      · intro c hc
        rcases List.mem_cons.mp hc with rfl | hc
        · intro o ho hpo
          exact .inl (by rw [h2.conns]
                         exact List.mem_append_right _ (h2.sub (mem_outl.mpr ⟨ho, hpo.1⟩)))
        · exact (h2.closed c hc).mono (fun _ h => h) (fun cp hcp hn => .inl (hnode cp hcp hn))
    | node =>
      by_cases hg : i.target ∈ b.comps
      · simp only [hg, if_true]
        refine ⟨_, [], rfl, again ?_⟩
        intro o' _ _; exact .inr (.inl ⟨hp, hg⟩)
      · simp only [hg, if_false]
        have hpass : ∀ o, FluidPasses i o ↔ o.source = i.target := by
          intro o; unfold FluidPasses; simp [hp]
        obtain ⟨b', new, h1, h2⟩ := wLoop_spec A hst ih i [i.target] (.inr rfl) (outl cs i.target) b hI
          hib (A.outl_nodup _)
          (by intro o h; obtain ⟨ho, hs⟩ := mem_outl.mp h
              exact ⟨ho, (hpass o).mpr hs, fun hm => hI.guard _ (.inl hp) hg o hm hs⟩)
          (by simp [hp]) (by omega)
        have hall : ∀ o ∈ cs, o.source = i.target → o ∈ b'.conns := by
          intro o ho hs
          rw [h2.conns]; exact List.mem_append_right _ (h2.sub (mem_outl.mpr ⟨ho, hs⟩))
        have hnode : ∀ cp ∈ b.comps ++ [i.target], cp.wpass = .node →
            cp ∈ b.comps ∨ ∀ o ∈ cs, o.source = cp → o ∈ b'.conns := by
          intro cp hcp _
          rcases List.mem_append.mp hcp with h | h
          · exact .inl h
          · simp only [List.mem_singleton] at h; subst h; exact .inr hall
        refine ⟨b', new, h1, h2.conns, h2.comps, h2.inv, ?_, ?_, ?_⟩
        · intro c hc
          rcases h2.preds c hc with h | ⟨p, hp1, hp2, hp3⟩
          · have hs := (mem_outl.mp h).2
            exact ⟨i, by simp, (hpass c).mpr hs, .inr (hs ▸ hg)⟩
          · exact ⟨p, List.mem_cons_of_mem _ hp1, hp2, hp3⟩
        · intro cp hcp hn
          rcases h2.done cp hcp hn with h | h
          · exact hnode cp h hn
          · exact .inr h
        · intro c hc
          rcases List.mem_cons.mp hc with rfl | hc
          · intro o ho hpo; exact .inl (hall o ho hpo.1)
          · exact (h2.closed c hc).mono (fun _ h => h) hnode

end search
end Tespy
