import Verif.Props.WrapperExamples
import Mathlib.Algebra.Order.Field.Rat
/-
C66: the fluids, mixing rules and property engines of connections which exchange fluids.
-/
namespace Tespy
variable {K : Type} [Field K]

/-! ### one connection -/

/-- the value the default rule gives to fluid `f` at a connection without value for it -/
def shareValue (n : ℕ) (w : WFluid K) (f : String) : K :=
  match Dict.get? w.val0 f with
  | some x => x
  | none => 1 / (n : K)

theorem keys_none {β : Type} {d : Dict String β} {f : String} (h : f ∉ d.keys) : Dict.get? d f = none := by
  cases hg : Dict.get? d f with
  | none => rfl
  | some b => exact absurd (dict_keys_get.mpr ⟨b, hg⟩) h

theorem defaultValue_spec (n : ℕ) (w : WFluid K) (f : String) :
    (defaultValue n w f).isSet = w.isSet ∧ (defaultValue n w f).val0 = w.val0 ∧
    (defaultValue n w f).rule = w.rule ∧
    (defaultValue n w f).engine = w.engine ∧ (defaultValue n w f).backEnd = w.backEnd ∧
    (defaultValue n w f).wrapper = w.wrapper ∧
    (defaultValue n w f).val = if f ∈ w.isSet ∨ f ∈ w.val.keys then w.val
      else Dict.set w.val f (shareValue n w f) := by
  unfold defaultValue shareValue
  by_cases h1 : f ∈ w.isSet
  · simp [h1]
  by_cases h2 : f ∈ w.val.keys
  · simp [h1, h2]
  cases h3 : Dict.get? w.val0 f with
  | none =>
    have : f ∉ w.val0.keys := fun h => by
      obtain ⟨b, hb⟩ := dict_keys_get.mp h; rw [h3] at hb; cases hb
    simp [h1, h2, this]
  | some x =>
    have : f ∈ w.val0.keys := dict_keys_get.mpr ⟨x, h3⟩
    simp [h1, h2, this]

theorem foldDefault_spec (n : ℕ) (l : List String) : ∀ (w : WFluid K),
    (l.foldl (defaultValue n) w).isSet = w.isSet ∧ (l.foldl (defaultValue n) w).val0 = w.val0 ∧
    (l.foldl (defaultValue n) w).rule = w.rule ∧
    (l.foldl (defaultValue n) w).engine = w.engine ∧ (l.foldl (defaultValue n) w).backEnd = w.backEnd ∧
    (l.foldl (defaultValue n) w).wrapper = w.wrapper ∧
    ∀ f, Dict.get? (l.foldl (defaultValue n) w).val f =
      if f ∈ l ∧ f ∉ w.isSet ∧ f ∉ w.val.keys then some (shareValue n w f) else Dict.get? w.val f := by
  induction l with
  | nil => intro w; simp
  | cons a l ih =>
    intro w
    obtain ⟨a1, a2, a3, a4, a5, a6, a7⟩ := defaultValue_spec n w a
    obtain ⟨b1, b2, b3, b4, b5, b6, b7⟩ := ih (defaultValue n w a)
    simp only [List.foldl_cons]
    refine ⟨b1.trans a1, b2.trans a2, b3.trans a3, b4.trans a4, b5.trans a5, b6.trans a6, fun f => ?_⟩
    rw [b7 f, a1]
    have hnv : shareValue n (defaultValue n w a) f = shareValue n w f := by unfold shareValue; rw [a2]
    rw [hnv]
    have hget : ∀ g, Dict.get? (defaultValue n w a).val g =
        if g = a ∧ a ∉ w.isSet ∧ a ∉ w.val.keys then some (shareValue n w a) else Dict.get? w.val g := by
      intro g
      rw [a7]
      by_cases h : a ∈ w.isSet ∨ a ∈ w.val.keys
      · have h' : ¬ (g = a ∧ a ∉ w.isSet ∧ a ∉ w.val.keys) := fun ⟨_, h1, h2⟩ => h.elim h1 h2
        rw [if_pos h, if_neg h']
      · rw [if_neg h, dict_get_set]
        rw [not_or] at h
        by_cases hga : g = a <;> simp [hga, h]
    have hkey : ∀ g, g ∈ (defaultValue n w a).val.keys ↔
        g ∈ w.val.keys ∨ (g = a ∧ a ∉ w.isSet ∧ a ∉ w.val.keys) := by
      intro g
      rw [dict_keys_get, dict_keys_get, hget]
      by_cases h : g = a ∧ a ∉ w.isSet ∧ a ∉ w.val.keys
      · simp [h]
      · simp [h]
    by_cases hf : f = a
    · subst hf
      by_cases h1 : f ∈ w.isSet
      · simp [h1, hget]
      · by_cases h2 : f ∈ w.val.keys
        · simp [h1, h2, hget, hkey]
        · simp [h1, h2, hget, hkey]
    · simp [hf, hget, hkey]

theorem createWrapper_spec (w : WFluid K) (f : String) :
    (createWrapper w f).val = w.val ∧ (createWrapper w f).isSet = w.isSet ∧
    (createWrapper w f).rule = w.rule ∧
    ∀ g, Dict.get? (createWrapper w f).wrapper g =
      if g = f ∧ f ∉ w.wrapper.keys then
        some ((Dict.get? w.engine f).getD "CoolPropWrapper", (Dict.get? w.backEnd f).getD none)
      else Dict.get? w.wrapper g := by
  unfold createWrapper
  by_cases h : f ∈ w.wrapper.keys
  · simp [h]
  · simp only [h, if_false]
    refine ⟨trivial, trivial, trivial, fun g => ?_⟩
    rw [dict_get_set]
    by_cases hg : g = f <;> simp [hg, h]

theorem createWrapper_other (w : WFluid K) (f g : String) (hg : g ≠ f) :
    Dict.get? (createWrapper w f).engine g = Dict.get? w.engine g ∧
    Dict.get? (createWrapper w f).backEnd g = Dict.get? w.backEnd g := by
  unfold createWrapper
  by_cases h : f ∈ w.wrapper.keys
  · simp [h]
  · simp only [h, if_false]
    constructor
    · split
      · rfl
      · rw [dict_get_set, if_neg hg]
    · split
      · rfl
      · rw [dict_get_set, if_neg hg]

theorem foldWrapper_spec (l : List String) : ∀ (w : WFluid K),
    (l.foldl createWrapper w).val = w.val ∧ (l.foldl createWrapper w).isSet = w.isSet ∧
    (l.foldl createWrapper w).rule = w.rule ∧
    ∀ g, Dict.get? (l.foldl createWrapper w).wrapper g =
      if g ∈ l ∧ g ∉ w.wrapper.keys then
        some ((Dict.get? w.engine g).getD "CoolPropWrapper", (Dict.get? w.backEnd g).getD none)
      else Dict.get? w.wrapper g := by
  induction l with
  | nil => intro w; simp
  | cons a l ih =>
    intro w
    obtain ⟨a1, a2, a3, a4⟩ := createWrapper_spec w a
    obtain ⟨b1, b2, b3, b4⟩ := ih (createWrapper w a)
    simp only [List.foldl_cons]
    refine ⟨b1.trans a1, b2.trans a2, b3.trans a3, fun g => ?_⟩
    rw [b4]
    have hkey : g ∈ (createWrapper w a).wrapper.keys ↔ g ∈ w.wrapper.keys ∨ (g = a ∧ a ∉ w.wrapper.keys) := by
      rw [dict_keys_get, dict_keys_get, a4]
      by_cases h : g = a ∧ a ∉ w.wrapper.keys <;> simp [h]
    by_cases hg : g = a
    · subst hg
      by_cases h : g ∈ w.wrapper.keys
      · simp [hkey, a4, h]
      · simp [hkey, a4, h]
    · obtain ⟨c1, c2⟩ := createWrapper_other w a g hg
      simp [hkey, a4, hg, c1, c2]

theorem setFluids_spec (fluids : List String) (rule : String) (w : WFluid K) :
    (setFluids fluids rule w).rule = some rule ∧ (setFluids fluids rule w).wrapper = w.wrapper ∧
    (setFluids fluids rule w).engine = w.engine ∧ (setFluids fluids rule w).backEnd = w.backEnd ∧
    (∀ f, fluids = [f] → (setFluids fluids rule w).val = Dict.set w.val f 1) ∧
    ((∀ f, fluids ≠ [f]) → ∀ f, Dict.get? (setFluids fluids rule w).val f =
      if f ∈ fluids ∧ f ∉ w.isSet ∧ f ∉ w.val.keys then some (shareValue fluids.length w f)
      else Dict.get? w.val f) := by
  have key : ∀ l, l = fluids → (∀ f, l ≠ [f]) → setFluids l rule w =
      l.foldl (defaultValue l.length) { w with rule := some rule } := by
    intro l _ hl
    match l with
    | [] => rfl
    | [f] => exact absurd rfl (hl f)
    | _ :: _ :: _ => rfl
  by_cases h : ∃ f, fluids = [f]
  · obtain ⟨f, rfl⟩ := h
    refine ⟨rfl, rfl, rfl, rfl, ?_, fun h => absurd rfl (h f)⟩
    intro g hg; simp only [List.cons.injEq, and_true] at hg; subst hg; rfl
  · have h' : ∀ f, fluids ≠ [f] := fun f hf => h ⟨f, hf⟩
    obtain ⟨_, _, h3, h4, h5, h6, h7⟩ := foldDefault_spec fluids.length fluids { w with rule := some rule }
    rw [key fluids rfl h']
    refine ⟨h3, h6, h4, h5, fun f hf => absurd hf (h' f), fun _ f => ?_⟩
    rw [h7 f]; rfl

theorem setConn_val (fluids : List String) (rule : String) (engines : Dict String String)
    (backEnds : Dict String (Option String)) (w : WFluid K) :
    (setConn fluids rule engines backEnds w).val = (setFluids fluids rule w).val ∧
    (setConn fluids rule engines backEnds w).rule = some rule := by
  unfold setConn
  simp only
  obtain ⟨h1, _, h3, _⟩ := foldWrapper_spec (setFluids fluids rule w).val.keys
    { setFluids fluids rule w with
      engine := dictUpdateAll (setFluids fluids rule w).engine engines
      backEnd := dictUpdateAll (setFluids fluids rule w).backEnd backEnds }
  exact ⟨h1, h3.trans (setFluids_spec fluids rule w).1⟩

/-- the fluids known at a connection afterwards -/
theorem setConn_keys {fluids : List String} {rule : String} {engines : Dict String String}
    {backEnds : Dict String (Option String)} {w : WFluid K}
    (hset : ∀ f ∈ w.isSet, f ∈ w.val.keys) (f : String) :
    f ∈ (setConn fluids rule engines backEnds w).val.keys ↔ f ∈ fluids ∨ f ∈ w.val.keys := by
  rw [(setConn_val fluids rule engines backEnds w).1]
  obtain ⟨_, _, _, _, h5, h6⟩ := setFluids_spec fluids rule w
  by_cases h : ∃ g, fluids = [g]
  · obtain ⟨g, hg⟩ := h
    rw [h5 g hg, dict_keys_get, dict_get_set, hg]
    by_cases hfg : f = g
    · simp [hfg]
    · simp [hfg, dict_keys_get]
  · rw [dict_keys_get, h6 (fun g hg => h ⟨g, hg⟩)]
    by_cases hf : f ∈ w.val.keys
    · obtain ⟨b, hb⟩ := dict_keys_get.mp hf
      simp [hf, hb]
    · have hs : f ∉ w.isSet := fun hs => hf (hset f hs)
      by_cases hfl : f ∈ fluids
      · simp [hf, hs, hfl]
      · simp [hf, hfl, keys_none hf]

/-! ### groups -/

theorem potentialFluids_congr {st st' : ConnObj → WFluid K} {l : List ConnObj}
    (h : ∀ c ∈ l, st' c = st c) : potentialFluids st' l = potentialFluids st l := by
  unfold potentialFluids
  have h1 : l.flatMap (fun c => (st' c).isSet) = l.flatMap (fun c => (st c).isSet) :=
    List.flatMap_congr (fun c hc => by rw [h c hc])
  have h2 : l.flatMap (fun c => (st' c).val.keys) = l.flatMap (fun c => (st c).val.keys) :=
    List.flatMap_congr (fun c hc => by rw [h c hc])
  rw [h1, h2]

theorem mixingRules_congr {st st' : ConnObj → WFluid K} {l : List ConnObj}
    (h : ∀ c ∈ l, st' c = st c) : mixingRules st' l = mixingRules st l := by
  unfold mixingRules
  rw [List.filterMap_congr (fun c hc => by rw [h c hc])]

theorem collect_congr {β : Type} {get : WFluid K → Dict String β} {st st' : ConnObj → WFluid K}
    {l : List ConnObj} (h : ∀ c ∈ l, st' c = st c) : ∀ d, collect get st' l d = collect get st l d := by
  induction l with
  | nil => intro d; rfl
  | cons a l ih =>
    intro d
    simp only [collect]
    rw [h a (by simp), ih (fun c hc => h c (List.mem_cons_of_mem _ hc))]

/-- what a connection of a group gets -/
def groupValue (st : ConnObj → WFluid K) (l : List ConnObj) (c : ConnObj) : WFluid K :=
  setConn (potentialFluids st l) ((mixingRules st l).headD "ideal-cond")
    (collect WFluid.engine st l []) (collect WFluid.backEnd st l []) (st c)

theorem groupValue_congr {st st' : ConnObj → WFluid K} {l : List ConnObj}
    (h : ∀ c ∈ l, st' c = st c) {c : ConnObj} (hc : c ∈ l) : groupValue st' l c = groupValue st l c := by
  unfold groupValue
  rw [potentialFluids_congr h, mixingRules_congr h, collect_congr h, collect_congr h, h c hc]

theorem propagate_disjoint (groups : List WBranch) : ∀ (st st' : ConnObj → WFluid K),
    groups.Pairwise (fun g h => ∀ c, c ∈ g.conns → c ∉ h.conns) →
    propagateWrappers groups st = .ok st' →
    (∀ g ∈ groups, ∀ c ∈ g.conns, st' c = groupValue st g.conns c) ∧
    (∀ c, (∀ g ∈ groups, c ∉ g.conns) → st' c = st c) := by
  induction groups with
  | nil =>
    intro st st' _ h
    simp only [propagateWrappers, Except.ok.injEq] at h
    subst h; simp
  | cons g gs ih =>
    intro st st' hp h
    rw [List.pairwise_cons] at hp
    simp only [propagateWrappers] at h
    cases hw : wrapBranch g.conns st with
    | error e => rw [hw] at h; cases h
    | ok st1 =>
      rw [hw] at h
      have hst1 : ∀ c, st1 c = if c ∈ g.conns then groupValue st g.conns c else st c := by
        unfold wrapBranch at hw
        split at hw
        · cases hw
        · split at hw
          · cases hw
          · injection hw with hw; subst hw; intro c; rfl
      obtain ⟨h1, h2⟩ := ih st1 st' hp.2 h
      constructor
      · intro k hk c hc
        rcases List.mem_cons.mp hk with rfl | hk
        · rw [h2 c (fun k' hk' => hp.1 k' hk' c hc), hst1, if_pos hc]
        · rw [h1 k hk c hc]
          apply groupValue_congr _ hc
          intro d hd
          rw [hst1, if_neg (fun hd' => hp.1 k hk d hd' hd)]
      · intro c hc
        rw [h2 c (fun k hk => hc k (List.mem_cons_of_mem _ hk)), hst1, if_neg (hc g (by simp))]

theorem mem_potential {st : ConnObj → WFluid K} {l : List ConnObj}
    (hset : ∀ c ∈ l, ∀ f ∈ (st c).isSet, f ∈ (st c).val.keys) (f : String) :
    f ∈ potentialFluids st l ↔ ∃ c ∈ l, f ∈ (st c).val.keys := by
  unfold potentialFluids
  simp only [List.mem_dedup, List.mem_append, List.mem_flatMap]
  constructor
  · rintro (⟨c, hc, h⟩ | h)
    · exact ⟨c, hc, hset c hc f h⟩
    · exact h
  · exact .inr

section network
variable {cs : List ConnObj} {comps : List CompObj}

/-- The network meets the conditions for a correct division into groups. -/
structure Divisible (cs : List ConnObj) : Prop where
  engines : ∀ s ∈ cs, FluidStart s → ¬ CoolsAndBurns cs s
  meets : ∀ s ∈ cs, ∀ t ∈ cs, ∀ u ∈ cs, FluidStart s → FluidStart t → FluidStart u →
    Meet cs s t → Meet cs t u → Meet cs s u

/-- Some fluid gets to the connection. -/
def Reached (cs : List ConnObj) (c : ConnObj) : Prop := ∃ s ∈ cs, FluidStart s ∧ FluidReaches cs s c

theorem group_of (A : Accepted cs comps) (D : Divisible cs) {fuel : ℕ} (hf : cs.length ≤ fuel)
    {groups : List WBranch} (hg : createWrapperBranches cs comps fuel = .ok groups) :
    groups.Pairwise (fun g h => ∀ c, c ∈ g.conns → c ∉ h.conns) ∧
    (∀ s ∈ cs, FluidStart s → ∃ g ∈ groups, ∀ c, FluidReaches cs s c → c ∈ g.conns) ∧
    (∀ g ∈ groups, ∀ c ∈ g.conns, c ∈ cs ∧ Reached cs c) := by
  obtain ⟨gs, h1, h2, h3, h4⟩ := C64_groups_partial A D.engines fuel hf
  rw [hg] at h1; injection h1 with h1; subst h1
  exact ⟨h4 D.meets, h2, h3⟩

/-- C65: in a divisible network no connection is in two groups, every connection some fluid gets to
is in a group, and with it all connections it passes its fluid to. -/
theorem C65_disjoint_partial (A : Accepted cs comps) (D : Divisible cs) {fuel : ℕ}
    (hf : cs.length ≤ fuel) :
    ∃ groups, createWrapperBranches cs comps fuel = .ok groups ∧
      groups.Pairwise (fun g h => ∀ c, c ∈ g.conns → c ∉ h.conns) ∧
      (∀ c ∈ cs, Reached cs c → ∃ g ∈ groups, c ∈ g.conns) ∧
      (∀ g ∈ groups, ∀ i ∈ g.conns, ∀ o ∈ cs, FluidPasses i o → o ∈ g.conns) := by
  obtain ⟨groups, hg, _⟩ := C64_groups_partial A D.engines fuel hf
  obtain ⟨h1, h2, h3⟩ := group_of A D hf hg
  refine ⟨groups, hg, h1, fun c _ ⟨s, hs, hst, hr⟩ => ?_, fun g hgm i hi o ho hp => ?_⟩
  · obtain ⟨g, hgm, hgc⟩ := h2 s hs hst
    exact ⟨g, hgm, hgc c hr⟩
  · obtain ⟨hic, s, hs, hst, hr⟩ := h3 g hgm i hi
    obtain ⟨g', hgm', hgc⟩ := h2 s hs hst
    have hi' := hgc i hr
    have ho' := hgc o (hr.next hic ho hp)
    have : g = g' := by
      by_contra hne
      rcases List.pairwise_iff_getElem.mp h1 with h1
      obtain ⟨a, ha, rfl⟩ := List.getElem_of_mem hgm
      obtain ⟨b, hb, rfl⟩ := List.getElem_of_mem hgm'
      rcases lt_trichotomy a b with hlt | rfl | hlt
      · exact h1 a b ha hb hlt i hi hi'
      · exact hne rfl
      · exact h1 b a hb ha hlt i hi' hi
    rw [this]; exact ho'

/-- C66: after the fluids have been distributed, two connections between which fluid passes know
the same fluids and use the same mixing rule, in every divisible network and for every
specification of fluids. -/
theorem C66_same_fluids_partial (A : Accepted cs comps) (D : Divisible cs) {fuel : ℕ}
    (hf : cs.length ≤ fuel) {groups : List WBranch}
    (hg : createWrapperBranches cs comps fuel = .ok groups) {st st' : ConnObj → WFluid K}
    (hset : ∀ c ∈ cs, ∀ f ∈ (st c).isSet, f ∈ (st c).val.keys)
    (hp : propagateWrappers groups st = .ok st') :
    ∀ i ∈ cs, ∀ o ∈ cs, Reached cs i → FluidPasses i o →
      (∀ f, f ∈ (st' i).val.keys ↔ f ∈ (st' o).val.keys) ∧ (st' i).rule = (st' o).rule := by
  intro i hi o ho ⟨s, hs, hst, hr⟩ hpo
  obtain ⟨hdis, hcov, hsound⟩ := group_of A D hf hg
  obtain ⟨h1, _⟩ := propagate_disjoint groups st st' hdis hp
  obtain ⟨g, hgm, hgc⟩ := hcov s hs hst
  have hig := hgc i hr
  have hog := hgc o (hr.next hi ho hpo)
  have hset' : ∀ c ∈ g.conns, ∀ f ∈ (st c).isSet, f ∈ (st c).val.keys :=
    fun c hc => hset c (hsound g hgm c hc).1
  have hk : ∀ c ∈ g.conns, ∀ f, f ∈ (st' c).val.keys ↔ f ∈ potentialFluids st g.conns := by
    intro c hc f
    rw [h1 g hgm c hc, groupValue, setConn_keys (hset' c hc)]
    constructor
    · rintro (h | h)
      · exact h
      · exact (mem_potential hset' f).mpr ⟨c, hc, h⟩
    · exact .inl
  refine ⟨fun f => by rw [hk i hig, hk o hog], ?_⟩
  rw [h1 g hgm i hig, h1 g hgm o hog, groupValue, groupValue, (setConn_val _ _ _ _ _).2,
    (setConn_val _ _ _ _ _).2]

/-- C66: a fluid specified anywhere on the way of a fluid stream is known everywhere on it. -/
theorem C66_known_partial (A : Accepted cs comps) (D : Divisible cs) {fuel : ℕ}
    (hf : cs.length ≤ fuel) {groups : List WBranch}
    (hg : createWrapperBranches cs comps fuel = .ok groups) {st st' : ConnObj → WFluid K}
    (hset : ∀ c ∈ cs, ∀ f ∈ (st c).isSet, f ∈ (st c).val.keys)
    (hp : propagateWrappers groups st = .ok st') {s c d : ConnObj} (hs : s ∈ cs) (hst : FluidStart s)
    (hc : FluidReaches cs s c) (hd : FluidReaches cs s d) {f : String} (hfd : f ∈ (st d).val.keys) :
    f ∈ (st' c).val.keys := by
  obtain ⟨hdis, hcov, hsound⟩ := group_of A D hf hg
  obtain ⟨h1, _⟩ := propagate_disjoint groups st st' hdis hp
  obtain ⟨g, hgm, hgc⟩ := hcov s hs hst
  have hset' : ∀ c ∈ g.conns, ∀ f ∈ (st c).isSet, f ∈ (st c).val.keys :=
    fun c hc => hset c (hsound g hgm c hc).1
  rw [h1 g hgm c (hgc c hc), groupValue, setConn_keys (hset' c (hgc c hc))]
  exact .inl ((mem_potential hset' f).mpr ⟨d, hgc d hd, hfd⟩)

/-- C66: fractions a connection has are kept if at least two fluids are known there; fluids it did
not know get the starting value or an equal share of all known fluids; a single fluid gets the
fraction 1. -/
theorem C66_values_partial (A : Accepted cs comps) (D : Divisible cs) {fuel : ℕ}
    (hf : cs.length ≤ fuel) {groups : List WBranch}
    (hg : createWrapperBranches cs comps fuel = .ok groups) {st st' : ConnObj → WFluid K}
    (hset : ∀ c ∈ cs, ∀ f ∈ (st c).isSet, f ∈ (st c).val.keys)
    (hp : propagateWrappers groups st = .ok st') {c : ConnObj} (hr : Reached cs c) :
    ∃ fluids : List String, fluids.Nodup ∧ (∀ f, f ∈ fluids ↔ f ∈ (st' c).val.keys) ∧
      (∀ f, fluids = [f] → Dict.get? (st' c).val f = some 1) ∧
      (2 ≤ fluids.length → ∀ f,
        (f ∈ (st c).val.keys → Dict.get? (st' c).val f = Dict.get? (st c).val f) ∧
        (f ∈ fluids → f ∉ (st c).val.keys → f ∈ (st c).val0.keys →
          Dict.get? (st' c).val f = Dict.get? (st c).val0 f) ∧
        (f ∈ fluids → f ∉ (st c).val.keys → f ∉ (st c).val0.keys →
          Dict.get? (st' c).val f = some (1 / (fluids.length : K)))) := by
  obtain ⟨s, hs, hst, hr⟩ := hr
  obtain ⟨hdis, hcov, hsound⟩ := group_of A D hf hg
  obtain ⟨h1, _⟩ := propagate_disjoint groups st st' hdis hp
  obtain ⟨g, hgm, hgc⟩ := hcov s hs hst
  have hset' : ∀ c ∈ g.conns, ∀ f ∈ (st c).isSet, f ∈ (st c).val.keys :=
    fun c hc => hset c (hsound g hgm c hc).1
  have hcg := hgc c hr
  obtain ⟨_, _, _, _, h5, h6⟩ := setFluids_spec (potentialFluids st g.conns)
    ((mixingRules st g.conns).headD "ideal-cond") (st c)
  have hv : (st' c).val = (setFluids (potentialFluids st g.conns)
      ((mixingRules st g.conns).headD "ideal-cond") (st c)).val := by
    rw [h1 g hgm c hcg, groupValue, (setConn_val _ _ _ _ _).1]
  refine ⟨potentialFluids st g.conns, List.nodup_dedup _, fun f => ?_, fun f hfl => ?_, fun h2 f => ?_⟩
  · rw [h1 g hgm c hcg, groupValue, setConn_keys (hset' c hcg)]
    constructor
    · exact .inl
    · rintro (h | h)
      · exact h
      · exact (mem_potential hset' f).mpr ⟨c, hcg, h⟩
  · rw [hv, h5 f hfl, dict_get_set]; simp
  · have hne : ∀ x, potentialFluids st g.conns ≠ [x] := by
      intro x hx; rw [hx] at h2; simp at h2
    rw [hv, h6 hne]
    refine ⟨fun h => ?_, fun h3 h4 h5 => ?_, fun h3 h4 h5 => ?_⟩
    · simp [h]
    · have hs : f ∉ (st c).isSet := fun h => h4 (hset' c hcg f h)
      obtain ⟨x, hx⟩ := dict_keys_get.mp h5
      simp [h3, h4, hs, shareValue, hx]
    · have hs : f ∉ (st c).isSet := fun h => h4 (hset' c hcg f h)
      simp [h3, h4, hs, shareValue, keys_none h5]

end network

/-! ### error cases -/

/-- C66: different mixing rules on connections of one group are rejected. -/
theorem C66_rule_conflict (conns : List ConnObj) (st : ConnObj → WFluid K) {a b : ConnObj}
    (ha : a ∈ conns) (hb : b ∈ conns) {r q : String} (hr : (st a).rule = some r)
    (hq : (st b).rule = some q) (hne : r ≠ q) : wrapBranch conns st = .error .networkError := by
  unfold wrapBranch
  rw [if_pos]
  have h1 : r ∈ mixingRules st conns := by
    simp only [mixingRules, List.mem_dedup, List.mem_filterMap]; exact ⟨a, ha, hr⟩
  have h2 : q ∈ mixingRules st conns := by
    simp only [mixingRules, List.mem_dedup, List.mem_filterMap]; exact ⟨b, hb, hq⟩
  by_contra hlt
  match hm : mixingRules st conns with
  | [] => rw [hm] at h1; simp at h1
  | [x] => rw [hm] at h1 h2; simp only [List.mem_singleton] at h1 h2; exact hne (h1.trans h2.symm)
  | _ :: _ :: _ => rw [hm] at hlt; simp at hlt

/-- C67 fails for mixing rules: after a calculation all connections of a group carry its mixing
rule. Whoever then specifies another one on one connection of a group of several connections - as
would have been correct before the first calculation - gets an error. -/
theorem C67_rule_false (conns : List ConnObj) (st st1 : ConnObj → WFluid K) {a b : ConnObj}
    (ha : a ∈ conns) (hb : b ∈ conns) (hab : a ≠ b) (h1 : wrapBranch conns st = .ok st1)
    (q : String) (hq : (st1 a).rule ≠ some q) :
    wrapBranch conns (Function.update st1 a { st1 a with rule := some q }) = .error .networkError := by
  have hr : ∀ c ∈ conns, (st1 c).rule = some ((mixingRules st conns).headD "ideal-cond") := by
    unfold wrapBranch at h1
    split at h1
    · cases h1
    · split at h1
      · cases h1
      · injection h1 with h1; subst h1
        intro c hc
        simp only [hc, if_true]
        exact (setConn_val _ _ _ _ _).2
  refine C66_rule_conflict conns _ hb ha (r := (mixingRules st conns).headD "ideal-cond") (q := q) ?_ ?_ ?_
  · rw [Function.update_of_ne (Ne.symm hab)]; exact hr b hb
  · rw [Function.update_self]
  · intro he; rw [hr a ha, he] at hq; exact hq rfl

/-- C67 (first calculation): the property engine and back end of a fluid without wrapper are those
specified for it, or CoolProp. -/
theorem C67_first_partial (fluids : List String) (rule : String) (engines : Dict String String)
    (backEnds : Dict String (Option String)) (w : WFluid K) (hset : ∀ f ∈ w.isSet, f ∈ w.val.keys)
    (f : String) (hf : f ∈ fluids) (hw : f ∉ w.wrapper.keys) :
    Dict.get? (setConn fluids rule engines backEnds w).wrapper f =
      some ((Dict.get? (dictUpdateAll w.engine engines) f).getD "CoolPropWrapper",
        (Dict.get? (dictUpdateAll w.backEnd backEnds) f).getD none) := by
  obtain ⟨_, h2, h3, h4, _, _⟩ := setFluids_spec fluids rule w
  have hk := (setConn_keys (fluids := fluids) (rule := rule) (engines := engines) (backEnds := backEnds)
    hset f).mpr (.inl hf)
  rw [(setConn_val fluids rule engines backEnds w).1] at hk
  unfold setConn
  simp only
  rw [(foldWrapper_spec _ _).2.2.2 f]
  simp only [h2, h3, h4, hk, hw, not_false_eq_true, and_self, if_true]

/-- C67 fails for engines and back ends: once the wrapper of a fluid exists it is kept, whatever
engine and back end are specified for the next calculation. -/
theorem C67_engine_false (fluids : List String) (rule : String) (engines : Dict String String)
    (backEnds : Dict String (Option String)) (w : WFluid K) (f : String) (hw : f ∈ w.wrapper.keys) :
    Dict.get? (setConn fluids rule engines backEnds w).wrapper f = Dict.get? w.wrapper f := by
  obtain ⟨_, h2, _, _, _, _⟩ := setFluids_spec fluids rule w
  unfold setConn
  simp only
  rw [(foldWrapper_spec _ _).2.2.2 f]
  simp only [h2, hw, not_true_eq_false, and_false, if_false]

theorem wrapBranch_ok_iff (conns : List ConnObj) (st : ConnObj → WFluid K) :
    (∃ st', wrapBranch conns st = .ok st') ↔
      (∃ c ∈ conns, ∃ f, f ∈ (st c).isSet ∨ f ∈ (st c).val.keys) ∧
      (∀ a ∈ conns, ∀ b ∈ conns, ∀ r q, (st a).rule = some r → (st b).rule = some q → r = q) := by
  have hfl : potentialFluids st conns ≠ [] ↔ ∃ c ∈ conns, ∃ f, f ∈ (st c).isSet ∨ f ∈ (st c).val.keys := by
    rw [List.ne_nil_iff_exists_cons]
    constructor
    · rintro ⟨f, l, h⟩
      have : f ∈ potentialFluids st conns := by rw [h]; simp
      simp only [potentialFluids, List.mem_dedup, List.mem_append, List.mem_flatMap] at this
      rcases this with ⟨c, hc, h⟩ | ⟨c, hc, h⟩
      · exact ⟨c, hc, f, .inl h⟩
      · exact ⟨c, hc, f, .inr h⟩
    · rintro ⟨c, hc, f, h⟩
      have : f ∈ potentialFluids st conns := by
        simp only [potentialFluids, List.mem_dedup, List.mem_append, List.mem_flatMap]
        rcases h with h | h
        · exact .inl ⟨c, hc, h⟩
        · exact .inr ⟨c, hc, h⟩
      match hp : potentialFluids st conns with
      | [] => rw [hp] at this; simp at this
      | x :: l => exact ⟨x, l, rfl⟩
  constructor
  · rintro ⟨st', h⟩
    constructor
    · rw [← hfl]; intro hn
      unfold wrapBranch at h
      split at h
      · cases h
      · cases h
    · intro a ha b hb r q hr hq
      by_contra hne
      rw [C66_rule_conflict conns st ha hb hr hq hne] at h; cases h
  · rintro ⟨h1, h2⟩
    have hm : ¬ 1 < (mixingRules st conns).length := by
      intro hlt
      match hm : mixingRules st conns with
      | [] => rw [hm] at hlt; simp at hlt
      | [x] => rw [hm] at hlt; simp at hlt
      | x :: y :: l =>
        have hx : x ∈ mixingRules st conns := by rw [hm]; simp
        have hy : y ∈ mixingRules st conns := by rw [hm]; simp
        have hnd : (mixingRules st conns).Nodup := List.nodup_dedup _
        rw [hm] at hnd
        simp only [mixingRules, List.mem_dedup, List.mem_filterMap] at hx hy
        obtain ⟨a, ha, hxa⟩ := hx
        obtain ⟨b, hb, hyb⟩ := hy
        have := h2 a ha b hb x y hxa hyb
        subst this
        simp at hnd
    refine ⟨fun c => if c ∈ conns then groupValue st conns c else st c, ?_⟩
    unfold wrapBranch
    rw [if_neg hm, if_neg (hfl.mpr h1)]
    rfl

/-- C66: for disjoint groups the fluids can be distributed exactly if every group contains a
connection with a fluid and no two connections with different mixing rules. -/
theorem C66_accepted_iff (groups : List WBranch) : ∀ (st : ConnObj → WFluid K),
    groups.Pairwise (fun g h => ∀ c, c ∈ g.conns → c ∉ h.conns) →
    ((∃ st', propagateWrappers groups st = .ok st') ↔
      ∀ g ∈ groups, (∃ c ∈ g.conns, ∃ f, f ∈ (st c).isSet ∨ f ∈ (st c).val.keys) ∧
        (∀ a ∈ g.conns, ∀ b ∈ g.conns, ∀ r q, (st a).rule = some r → (st b).rule = some q → r = q)) := by
  induction groups with
  | nil => intro st _; simp [propagateWrappers]
  | cons g gs ih =>
    intro st hp
    rw [List.pairwise_cons] at hp
    rw [List.forall_mem_cons, ← wrapBranch_ok_iff]
    cases hw : wrapBranch g.conns st with
    | error e => simp [propagateWrappers, hw]
    | ok st1 =>
      have hst1 : ∀ c, c ∉ g.conns → st1 c = st c := by
        unfold wrapBranch at hw
        split at hw
        · cases hw
        · split at hw
          · cases hw
          · injection hw with hw; subst hw; intro c hc; simp [hc]
      simp only [propagateWrappers, hw, Except.ok.injEq, exists_eq', true_and]
      rw [ih st1 hp.2]
      refine forall₂_congr fun k hk => ?_
      have hk' : ∀ c ∈ k.conns, st1 c = st c := fun c hc => hst1 c (fun hc' => hp.1 k hk c hc' hc)
      refine and_congr (exists_congr fun c => and_congr_right fun hc => by rw [hk' c hc]) ?_
      refine forall₂_congr fun a ha => forall₂_congr fun b hb => by rw [hk' a ha, hk' b hb]

/-! ### examples -/

/-- two sources, merged and led to a sink -/
def wbTwo : List ConnObj :=
  [⟨0, "a", wbSrc 50 "A", "out1", wbMrg 58 "M", "in1"⟩, ⟨1, "b", wbSrc 51 "B", "out1", wbMrg 58 "M", "in2"⟩,
   ⟨2, "m", wbMrg 58 "M", "out1", wbSnk 62 "S", "in1"⟩]
def wbTwoComps : List CompObj := [wbSrc 50 "A", wbSrc 51 "B", wbMrg 58 "M", wbSnk 62 "S"]

/-- a connection with nothing specified -/
def wbEmpty : WFluid ℚ := ⟨[], [], [], [], [], none, []⟩
/-- `fluid={"N2": 1}, fluid_engines={"N2": IAPWS}` at `a`, `fluid={"O2": 1}, mixing_rule="ideal"` at
`b` and `fluid0={"O2": 0.3}` at `m` -/
def wbState (c : ConnObj) : WFluid ℚ :=
  if c.label = "a" then { wbEmpty with val := [("N2", 1)], isSet := ["N2"], engine := [("N2", "IAPWS")] }
  else if c.label = "b" then { wbEmpty with val := [("O2", 1)], isSet := ["O2"], rule := some "ideal" }
  else { wbEmpty with val0 := [("O2", 3 / 10)] }

theorem wbTwo_accepted : Accepted wbTwo wbTwoComps where
  conns := by decide +kernel
  compsOk := by decide +kernel
  declared := by decide +kernel
  listed := by decide +kernel
  classes := by
    intro cp hcp
    simp only [wbTwoComps, List.mem_cons, List.not_mem_nil, or_false] at hcp
    rcases hcp with rfl | rfl | rfl | rfl
    · exact ⟨.source, rfl, 0, rfl, rfl⟩
    · exact ⟨.source, rfl, 0, rfl, rfl⟩
    · exact ⟨.merge, rfl, 2, show ["in1", "in2"] = numbered "in" 2 by decide +kernel, rfl⟩
    · exact ⟨.sink, rfl, 0, rfl, rfl⟩
  labels := by decide +kernel
  distinct := by decide +kernel

theorem wbTwo_divisible : Divisible wbTwo where
  engines := by
    rintro s _ _ ⟨a, ha, _, _, _, _, _, h, _⟩
    exact absurd h ((by decide +kernel : ∀ a ∈ wbTwo, a.target.wpass ≠ .engine) a ha)
  meets := by
    -- both fluids get to the outlet of the merge
    have hall : ∀ s ∈ wbTwo, FluidStart s →
        FluidReaches wbTwo s ⟨2, "m", wbMrg 58 "M", "out1", wbSnk 62 "S", "in1"⟩ := by
      intro s hs hst
      simp only [wbTwo, List.mem_cons, List.not_mem_nil, or_false] at hs
      rcases hs with rfl | rfl | rfl
      · exact .next .start (by decide +kernel) (by decide +kernel) ⟨rfl, trivial⟩
      · exact .next .start (by decide +kernel) (by decide +kernel) ⟨rfl, trivial⟩
      · exact .start
    intro s hs _ _ u hu hst _ hut _ _
    exact ⟨_, hall s hs hst, hall u hu hut⟩

/-- what is known at the three connections after the fluids have been distributed -/
def wbResult {β : Type} (get : WFluid ℚ → β) : Option (List β) :=
  match createWrapperBranches wbTwo wbTwoComps 3 with
  | .ok groups =>
    match propagateWrappers groups wbState with
    | .ok st => some (wbTwo.map (fun c => get (st c)))
    | .error _ => none
  | .error _ => none

-- non-vacuity: the fluids, the rule and the engine are known at all three connections
example : wbResult (fun w => Dict.get? w.val "N2") = some [some 1, some (1 / 2), some (1 / 2)] ∧
    wbResult (fun w => Dict.get? w.val "O2") = some [some (1 / 2), some 1, some (3 / 10)] ∧
    wbResult (fun w => w.rule) = some [some "ideal", some "ideal", some "ideal"] ∧
    wbResult (fun w => (Dict.get? w.wrapper "N2").map Prod.fst) =
      some [some "IAPWS", some "IAPWS", some "IAPWS"] ∧
    (∀ c ∈ wbTwo, ∀ f ∈ (wbState c).isSet, f ∈ (wbState c).val.keys) := by
  refine ⟨by decide +kernel, by decide +kernel, by decide +kernel, by decide +kernel, by decide +kernel⟩

/-- C66 fails for a single fluid: a specified fraction is replaced by 1. -/
theorem C66_single_false :
    ∃ st' : ConnObj → WFluid ℚ, propagateWrappers [⟨[exC1], []⟩]
        (fun _ => { wbEmpty with val := [("water", 9 / 10)], isSet := ["water"] }) = .ok st' ∧
      Dict.get? (st' exC1).val "water" = some 1 :=
  ⟨_, rfl, by decide +kernel⟩

/-- C66 fails for starting values: a fluid for which only a starting value is given is unknown, the
calculation ends with an error about missing fluid information. -/
theorem C66_fluid0_false :
    propagateWrappers [⟨[exC1, exC2], []⟩]
      (fun _ => { wbEmpty with val0 := [("water", 1)] }) = .error .networkError := rfl

/-- C66 in the network of `C65_overlap_false`: the outlet of the merge knows the fluid of `x`, its
other inlet does not; the balance of the merge looks it up there. -/
theorem C66_overlap_false :
    (createWrapperBranches wbFive wbFiveComps 15).toOption.map (fun groups =>
      (propagateWrappers groups (fun c =>
          if c.source.ctype = "Source" then { wbEmpty with val := [(c.label, 1)], isSet := [c.label] }
          else wbEmpty)).toOption.map (fun st =>
        (wbFive.filter (fun c => c.label = "b2" ∨ c.label = "m4")).map (fun c =>
          decide ("x" ∈ (st c).val.keys)))) = some (some [false, true]) := by
  decide +kernel

end Tespy
