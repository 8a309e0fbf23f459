import Mathlib.Data.List.Nodup
import Mathlib.Data.List.Count
import Verif.Model.Solver
/-
C21: every free variable owns exactly one column. C22: square systems.
-/
namespace Tespy

/-- the entries of the dictionary are pairwise different and each of them finds its own
position as column -/
structure Good (s : VSpace) : Prop where
  nodup : s.dict.Nodup
  col : ∀ i (h : i < s.dict.length), s.colOf s.dict[i] = some i

theorem good_append {s s' : VSpace} (hg : Good s) (o : Owner) (hd : s'.dict = s.dict ++ [o])
    (hn : o ∉ s.dict) (hc : s'.colOf o = some s.dict.length)
    (hother : ∀ o', o' ≠ o → s'.colOf o' = s.colOf o') : Good s' := by
  constructor
  · rw [hd, List.nodup_append]
    refine ⟨hg.nodup, by simp, ?_⟩
    intro a ha b hb
    rw [List.mem_singleton] at hb
    subst hb
    rintro rfl
    exact hn ha
  · intro i h
    have hlen : i < s.dict.length + 1 := by rw [hd] at h; simpa using h
    have hget : s'.dict[i] = (s.dict ++ [o])[i]'(by simpa using hlen) := by simp only [hd]
    rw [hget]
    by_cases hi : i < s.dict.length
    · rw [List.getElem_append_left hi, hother, hg.col i hi]
      intro e
      exact hn (e ▸ List.getElem_mem hi)
    · have : i = s.dict.length := by omega
      subst this
      simp [hc]

theorem assignFluid_spec (b : ℕ) (fs : List String) : ∀ (s : VSpace), Good s → fs.Nodup →
    (∀ f ∈ fs, Owner.fluid b f ∉ s.dict) →
    Good (assignFluid b fs s) ∧ (assignFluid b fs s).dict = s.dict ++ fs.map (Owner.fluid b) ∧
    (assignFluid b fs s).box = s.box ∧ (assignFluid b fs s).connVars = s.connVars := by
  induction fs with
  | nil => intro s hg _ _; exact ⟨hg, by simp [assignFluid], rfl, rfl⟩
  | cons f fs ih =>
    intro s hg hn hnew
    rw [List.nodup_cons] at hn
    rw [assignFluid]
    have hg' : Good { s with
        fluidCol := fun c g => if c = b ∧ g = f then some s.dict.length else s.fluidCol c g
        dict := s.dict ++ [.fluid b f] } := by
      refine good_append hg (.fluid b f) rfl (hnew f (by simp)) (by simp [VSpace.colOf]) ?_
      intro o' ho'
      cases o' with
      | prop c => rfl
      | comp c g => rfl
      | fluid c g =>
        simp only [VSpace.colOf]
        rw [if_neg]
        rintro ⟨rfl, rfl⟩
        exact ho' rfl
    obtain ⟨i1, i2, i3, i4⟩ := ih _ hg' hn.2 (by
      intro g hg2 hmem
      rcases List.mem_append.mp hmem with h | h
      · exact hnew g (by simp [hg2]) h
      · simp only [List.mem_singleton, Owner.fluid.injEq, true_and] at h
        subst h
        exact hn.1 hg2)
    exact ⟨i1, by rw [i2]; simp, i3, i4⟩

theorem assignFluids_spec (bs : List (ℕ × List String)) : ∀ (s : VSpace), Good s →
    (bs.map Prod.fst).Nodup → (∀ b ∈ bs, b.2.Nodup) →
    (∀ b ∈ bs, ∀ f, Owner.fluid b.1 f ∉ s.dict) →
    Good (assignFluids bs s) ∧
    (assignFluids bs s).dict = s.dict ++ bs.flatMap (fun b => b.2.map (Owner.fluid b.1)) ∧
    (assignFluids bs s).box = s.box ∧ (assignFluids bs s).connVars = s.connVars := by
  induction bs with
  | nil => intro s hg _ _ _; exact ⟨hg, by simp [assignFluids], rfl, rfl⟩
  | cons b bs ih =>
    intro s hg hn hnd hnew
    rw [List.map_cons, List.nodup_cons] at hn
    obtain ⟨a1, a2, a3, a4⟩ := assignFluid_spec b.1 b.2 s hg (hnd b (by simp))
      (fun f _ => hnew b (by simp) f)
    rw [assignFluids]
    obtain ⟨i1, i2, i3, i4⟩ := ih _ a1 hn.2 (fun b' hb' => hnd b' (by simp [hb'])) (by
      intro b' hb' f hmem
      rw [a2, List.mem_append] at hmem
      rcases hmem with h | h
      · exact hnew b' (by simp [hb']) f h
      · obtain ⟨g, _, hg2⟩ := List.mem_map.mp h
        injection hg2 with e1 e2
        exact hn.1 (List.mem_map.mpr ⟨b', hb', e1.symm⟩))
    exact ⟨i1, by rw [i2, a2]; simp, i3.trans a3, i4.trans a4⟩

theorem assignComp_spec (id : ℕ) (fs : List String) : ∀ (s : VSpace), Good s → fs.Nodup →
    (∀ f ∈ fs, Owner.comp id f ∉ s.dict) →
    Good (assignComp id fs s) ∧ (assignComp id fs s).dict = s.dict ++ fs.map (Owner.comp id) ∧
    (assignComp id fs s).box = s.box := by
  induction fs with
  | nil => intro s hg _ _; exact ⟨hg, by simp [assignComp], rfl⟩
  | cons f fs ih =>
    intro s hg hn hnew
    rw [List.nodup_cons] at hn
    rw [assignComp]
    have hg' : Good { s with
        compCol := fun c g => if c = id ∧ g = f then some s.dict.length else s.compCol c g
        dict := s.dict ++ [.comp id f] } := by
      refine good_append hg (.comp id f) rfl (hnew f (by simp)) (by simp [VSpace.colOf]) ?_
      intro o' ho'
      cases o' with
      | prop c => rfl
      | fluid c g => rfl
      | comp c g =>
        simp only [VSpace.colOf]
        rw [if_neg]
        rintro ⟨rfl, rfl⟩
        exact ho' rfl
    obtain ⟨i1, i2, i3⟩ := ih _ hg' hn.2 (by
      intro g hg2 hmem
      rcases List.mem_append.mp hmem with h | h
      · exact hnew g (by simp [hg2]) h
      · simp only [List.mem_singleton, Owner.comp.injEq, true_and] at h
        subst h
        exact hn.1 hg2)
    exact ⟨i1, by rw [i2]; simp, i3⟩

theorem assignComps_spec (bs : List (ℕ × List String)) : ∀ (s : VSpace), Good s →
    (bs.map Prod.fst).Nodup → (∀ b ∈ bs, b.2.Nodup) →
    (∀ b ∈ bs, ∀ f, Owner.comp b.1 f ∉ s.dict) →
    Good (assignComps bs s) ∧
    (assignComps bs s).dict = s.dict ++ bs.flatMap (fun b => b.2.map (Owner.comp b.1)) ∧
    (assignComps bs s).box = s.box := by
  induction bs with
  | nil => intro s hg _ _ _; exact ⟨hg, by simp [assignComps], rfl⟩
  | cons b bs ih =>
    intro s hg hn hnd hnew
    rw [List.map_cons, List.nodup_cons] at hn
    obtain ⟨a1, a2, a3⟩ := assignComp_spec b.1 b.2 s hg (hnd b (by simp))
      (fun f _ => hnew b (by simp) f)
    rw [assignComps]
    obtain ⟨i1, i2, i3⟩ := ih _ a1 hn.2 (fun b' hb' => hnd b' (by simp [hb'])) (by
      intro b' hb' f hmem
      rw [a2, List.mem_append] at hmem
      rcases hmem with h | h
      · exact hnew b' (by simp [hb']) f h
      · obtain ⟨g, _, hg2⟩ := List.mem_map.mp h
        injection hg2 with e1 e2
        exact hn.1 (List.mem_map.mpr ⟨b', hb', e1.symm⟩))
    exact ⟨i1, by rw [i2, a2]; simp, i3.trans a3⟩

/-- invariant of the loop over the connections -/
structure PropInv (s : VSpace) : Prop where
  good : Good s
  cv : ∀ b, b ∈ s.connVars ↔ Owner.prop b ∈ s.dict
  free : ∀ b, Owner.prop b ∈ s.dict → (s.box b).isSet = false ∧ (s.box b).isVar = true

theorem assignProp_spec {s : VSpace} (h : PropInv s) (b : ℕ) :
    PropInv (assignProp s b) ∧
    (∀ c, ((assignProp s b).box c).isSet = (s.box c).isSet) ∧
    (∀ c, c ≠ b → (assignProp s b).box c = s.box c) ∧
    (∀ o, o ∈ (assignProp s b).dict ↔ o ∈ s.dict ∨
      (o = .prop b ∧ (s.box b).isSet = false ∧ (s.box b).solved = false)) ∧
    (Owner.prop b ∉ (assignProp s b).dict → ((assignProp s b).box b).isVar = false) := by
  unfold assignProp
  by_cases h1 : (s.box b).isSet = false ∧ b ∉ s.connVars
  · rw [if_pos h1]
    have hnd : Owner.prop b ∉ s.dict := fun hm => h1.2 ((h.cv b).mpr hm)
    by_cases h2 : (s.box b).solved = false
    · rw [if_pos h2]
      refine ⟨⟨?_, ?_, ?_⟩, ?_, ?_, ?_, ?_⟩
      · refine good_append h.good (.prop b) rfl hnd (by simp [VSpace.colOf]) ?_
        intro o' ho'
        cases o' with
        | fluid c g => rfl
        | comp c g => rfl
        | prop c =>
          have : c ≠ b := fun e => ho' (by rw [e])
          simp [VSpace.colOf, Function.update_apply, this]
      · intro c
        simp only [List.mem_append, List.mem_singleton, Owner.prop.injEq, h.cv c]
      · intro c hc
        by_cases hcb : c = b
        · subst hcb; simp [h1.1]
        · simp only [List.mem_append, List.mem_singleton, Owner.prop.injEq, hcb, or_false] at hc
          simp only [Function.update_apply, hcb, if_false]
          exact h.free c hc
      · intro c
        by_cases hcb : c = b
        · subst hcb; simp
        · simp [hcb]
      · intro c hcb; simp [hcb]
      · intro o
        simp [h1.1, h2]
      · intro hc; exfalso; apply hc; simp
    · rw [if_neg h2]
      refine ⟨⟨⟨h.good.nodup, ?_⟩, h.cv, ?_⟩, ?_, ?_, ?_, ?_⟩
      · intro i hi
        rw [← h.good.col i hi]
        simp only
        cases s.dict[i] with
        | fluid c g => rfl
        | comp c g => rfl
        | prop c =>
          by_cases hcb : c = b
          · subst hcb; simp [VSpace.colOf]
          · simp [VSpace.colOf, hcb]
      · intro c hc
        have hcb : c ≠ b := by rintro rfl; exact hnd hc
        simp only [Function.update_apply, hcb, if_false]
        exact h.free c hc
      · intro c
        by_cases hcb : c = b
        · subst hcb; simp
        · simp [hcb]
      · intro c hcb; simp [hcb]
      · intro o
        constructor
        · exact Or.inl
        · rintro (ho | ⟨_, _, h3⟩)
          · exact ho
          · exact absurd h3 h2
      · intro _; simp
  · rw [if_neg h1]
    by_cases h2 : (s.box b).isSet = true
    · rw [if_pos h2]
      refine ⟨⟨⟨h.good.nodup, ?_⟩, h.cv, ?_⟩, ?_, ?_, ?_, ?_⟩
      · intro i hi
        rw [← h.good.col i hi]
        simp only
        cases s.dict[i] with
        | fluid c g => rfl
        | comp c g => rfl
        | prop c =>
          by_cases hcb : c = b
          · subst hcb; simp [VSpace.colOf]
          · simp [VSpace.colOf, hcb]
      · intro c hc
        have hcb : c ≠ b := by
          rintro rfl
          have := (h.free c hc).1
          rw [h2] at this; simp at this
        simp only [Function.update_apply, hcb, if_false]
        exact h.free c hc
      · intro c
        by_cases hcb : c = b
        · subst hcb; simp
        · simp [hcb]
      · intro c hcb; simp [hcb]
      · intro o
        constructor
        · exact Or.inl
        · rintro (ho | ⟨_, h3, _⟩)
          · exact ho
          · rw [h2] at h3; simp at h3
      · intro _; simp
    · rw [if_neg h2]
      have h3 : (s.box b).isSet = false := by simpa using h2
      have h4 : b ∈ s.connVars := by
        by_contra h5; exact h1 ⟨h3, h5⟩
      refine ⟨h, fun _ => rfl, fun _ _ => rfl, ?_, ?_⟩
      · intro o
        constructor
        · exact Or.inl
        · rintro (ho | ⟨ho, _, _⟩)
          · exact ho
          · rw [ho]; exact (h.cv b).mp h4
      · intro hn; exact absurd ((h.cv b).mp h4) hn

theorem assignProps_spec (bs : List ℕ) : ∀ (s : VSpace), PropInv s →
    (∀ b, (s.box b).solved = true → bs.count b ≤ 1) →
    PropInv (assignProps bs s) ∧
    (∀ c, ((assignProps bs s).box c).isSet = (s.box c).isSet) ∧
    (∀ c, c ∉ bs → (assignProps bs s).box c = s.box c) ∧
    (∀ o, o ∈ (assignProps bs s).dict ↔ o ∈ s.dict ∨
      ∃ b ∈ bs, o = .prop b ∧ (s.box b).isSet = false ∧ (s.box b).solved = false) ∧
    (∀ b ∈ bs, Owner.prop b ∉ (assignProps bs s).dict → ((assignProps bs s).box b).isVar = false) := by
  induction bs with
  | nil => intro s h _; exact ⟨h, fun _ => rfl, fun _ _ => rfl, by simp [assignProps], by simp⟩
  | cons b bs ih =>
    intro s h hs
    obtain ⟨a1, a2, a3, a4, a5⟩ := assignProp_spec h b
    rw [assignProps]
    have hs' : ∀ c, ((assignProp s b).box c).solved = true → bs.count c ≤ 1 := by
      intro c hc
      by_cases hcb : c = b
      · subst hcb
        have hsol : (s.box c).solved = true := by
          unfold assignProp at hc
          split at hc
          · split at hc
            · simpa using hc
            · simp at hc
          · split at hc
            · simpa using hc
            · exact hc
        have := hs c hsol
        rw [List.count_cons_self] at this
        omega
      · rw [a3 c hcb] at hc
        have := hs c hc
        rw [List.count_cons] at this
        omega
    obtain ⟨i1, i2, i3, i4, i5⟩ := ih _ a1 hs'
    refine ⟨i1, fun c => (i2 c).trans (a2 c), ?_, ?_, ?_⟩
    · intro c hc
      rw [List.mem_cons, not_or] at hc
      rw [i3 c hc.2, a3 c hc.1]
    · intro o
      rw [i4, a4]
      constructor
      · rintro ((ho | ⟨ho, h1, h2⟩) | ⟨c, hc, ho, h1, h2⟩)
        · exact Or.inl ho
        · exact Or.inr ⟨b, by simp, ho, h1, h2⟩
        · by_cases hcb : c = b
          · subst hcb
            rw [a2] at h1
            cases hsol : (s.box c).solved with
            | false => exact Or.inr ⟨c, by simp, ho, h1, hsol⟩
            | true =>
              have := hs c hsol
              rw [List.count_cons_self] at this
              have := List.count_pos_iff.mpr hc
              omega
          · rw [a3 c hcb] at h1 h2
            exact Or.inr ⟨c, by simp [hc], ho, h1, h2⟩
      · rintro (ho | ⟨c, hc, ho, h1, h2⟩)
        · exact Or.inl (Or.inl ho)
        · by_cases hcb : c = b
          · subst hcb; exact Or.inl (Or.inr ⟨ho, h1, h2⟩)
          · have hc' : c ∈ bs := by simpa [hcb] using hc
            exact Or.inr ⟨c, hc', ho, by rw [a2]; exact h1, by rw [a3 c hcb]; exact h2⟩
    · intro c hc hn
      by_cases hcb : c ∈ bs
      · exact i5 c hcb hn
      · have : c = b := by
          rcases List.mem_cons.mp hc with h | h
          · exact h
          · exact absurd h hcb
        subst this
        rw [i3 c hcb]
        exact a5 (fun hm => hn ((i4 _).mpr (Or.inl hm)))

/-- C21: the columns of the variable space. The owners of the columns are pairwise
different, the `i`-th one finds column `i` in its container, and they are exactly the free
variables: the visited property containers which are neither specified nor already solved,
the variable mass fractions and the component variables. A property container is marked as
variable if and only if it owns a column.
`props` lists the containers of all connections, a container shared in a branch occurs
several times. -/
theorem C21_columns (box : ℕ → VBox) (fluids : List (ℕ × List String)) (props : List ℕ)
    (comps : List (ℕ × List String))
    (hf : (fluids.map Prod.fst).Nodup) (hf2 : ∀ b ∈ fluids, b.2.Nodup)
    (hc : (comps.map Prod.fst).Nodup) (hc2 : ∀ c ∈ comps, c.2.Nodup)
    (hsol : ∀ b, (box b).solved = true → props.count b ≤ 1) :
    let s := variableSpace box fluids props comps
    s.dict.Nodup ∧
    (∀ i (h : i < s.dict.length), s.colOf s.dict[i] = some i) ∧
    (∀ b, .prop b ∈ s.dict ↔ b ∈ props ∧ (box b).isSet = false ∧ (box b).solved = false) ∧
    (∀ b f, .fluid b f ∈ s.dict ↔ ∃ fs, (b, fs) ∈ fluids ∧ f ∈ fs) ∧
    (∀ c v, .comp c v ∈ s.dict ↔ ∃ vs, (c, vs) ∈ comps ∧ v ∈ vs) ∧
    (∀ b ∈ props, ((s.box b).isVar = true ↔ .prop b ∈ s.dict)) := by
  intro s
  have g0 : Good ⟨box, [], [], fun _ _ => none, fun _ _ => none⟩ := ⟨List.nodup_nil, by simp⟩
  obtain ⟨f1, f2, f3, f4⟩ := assignFluids_spec fluids _ g0 hf hf2 (by simp)
  have p0 : PropInv (assignFluids fluids ⟨box, [], [], fun _ _ => none, fun _ _ => none⟩) := by
    refine ⟨f1, ?_, ?_⟩
    · intro b; rw [f4, f2]; simp
    · intro b hb; rw [f2] at hb; simp at hb
  obtain ⟨p1, p2, p3, p4, p5⟩ := assignProps_spec props _ p0 (by rw [f3]; exact hsol)
  rw [f3] at p4
  simp only [f2, List.nil_append] at p4
  obtain ⟨c1, c2, c3⟩ := assignComps_spec comps _ p1.good hc hc2 (by
    intro b _ f hm
    rw [p4] at hm
    simp at hm)
  have hprop : ∀ b, Owner.prop b ∈ s.dict ↔ Owner.prop b ∈ (assignProps props
      (assignFluids fluids ⟨box, [], [], fun _ _ => none, fun _ _ => none⟩)).dict := by
    intro b
    show Owner.prop b ∈ (assignComps comps _).dict ↔ _
    rw [c2, List.mem_append]
    simp
  refine ⟨c1.nodup, c1.col, ?_, ?_, ?_, ?_⟩
  · intro b
    rw [hprop, p4]
    simp
  · intro b f
    show Owner.fluid b f ∈ (assignComps comps _).dict ↔ _
    rw [c2, List.mem_append, p4]
    simp
  · intro c v
    show Owner.comp c v ∈ (assignComps comps _).dict ↔ _
    rw [c2, List.mem_append, p4]
    simp
  · intro b hb
    rw [hprop]
    show ((assignComps comps _).box b).isVar = true ↔ _
    rw [c3]
    constructor
    · intro h
      by_contra hn
      rw [p5 b hb hn] at h
      simp at h
    · intro h; exact (p1.free b h).2

-- non-vacuity: containers 0 (shared, visited twice), 1 (specified), 2 (solved), 3 (free)
example : let box : ℕ → VBox := fun b => ⟨b = 1, b = 2, false, none⟩
    (∀ b, (box b).solved = true → [0, 1, 2, 0, 3].count b ≤ 1) ∧
    (variableSpace box [(7, ["O2", "N2"])] [0, 1, 2, 0, 3] [(4, ["D"])]).dict =
      [.fluid 7 "O2", .fluid 7 "N2", .prop 0, .prop 3, .comp 4 "D"] := by
  refine ⟨?_, by decide +kernel⟩
  intro b hb
  have : b = 2 := by simpa using hb
  subst this
  decide

/-- C22: the iteration starts if and only if the number of equations equals the number of
variables; otherwise the error says which of the two is larger. -/
theorem C22_square (compEq connEq busEq udeEq compVars connVars : ℕ) :
    (determination compEq connEq busEq udeEq compVars connVars = .iterate ↔
      compEq + connEq + busEq + udeEq = compVars + connVars) ∧
    (determination compEq connEq busEq udeEq compVars connVars = .tooMany ↔
      compVars + connVars < compEq + connEq + busEq + udeEq) ∧
    (determination compEq connEq busEq udeEq compVars connVars = .notEnough ↔
      compEq + connEq + busEq + udeEq < compVars + connVars) := by
  unfold determination
  simp only
  refine ⟨?_, ?_, ?_⟩ <;> constructor
  · intro h; split at h
    · simp at h
    · split at h
      · simp at h
      · omega
  · intro h; rw [if_neg (by omega), if_neg (by omega)]
  · intro h; split at h
    · omega
    · split at h <;> simp at h
  · intro h; rw [if_pos (by omega)]
  · intro h; split at h
    · simp at h
    · split at h
      · omega
      · simp at h
  · intro h; rw [if_neg (by omega), if_pos (by omega)]

example : determination 3 2 1 0 1 5 = .iterate ∧ determination 3 2 1 1 1 5 = .tooMany := by decide

end Tespy
