import Mathlib.Data.List.Nodup
import Mathlib.Data.List.Perm.Basic
import Mathlib.Algebra.BigOperators.Group.List.Basic
import Mathlib.Algebra.Order.Ring.Rat
import Mathlib.Tactic.Linarith
import Mathlib.Tactic.Ring
import Verif.Model.Presolve
import Verif.Lemmas.DictLemmas
/-
C20: completion of the fluid composition of a branch.
-/
namespace Tespy
variable {K : Type} [Field K] [LinearOrder K]

/-- all specifications of the branch: fluid and specified mass fraction -/
def allSpecs (conns : List (FluidBox K)) : List (String × K) :=
  conns.flatMap (fun c => c.isSet.map (fun f => (f, look c.val f)))

theorem updateAll_get? (d : Dict String K) (es : List (String × K)) (hn : (es.map Prod.fst).Nodup) (f : String) :
    (∀ v, (f, v) ∈ es → (updateAll d es).get? f = some v) ∧
    (f ∉ es.map Prod.fst → (updateAll d es).get? f = d.get? f) := by
  induction es generalizing d with
  | nil => simp [updateAll]
  | cons e es ih =>
    rw [List.map_cons, List.nodup_cons] at hn
    obtain ⟨i1, i2⟩ := ih (Dict.set d e.1 e.2) hn.2
    rw [updateAll]
    constructor
    · intro v hv
      rcases List.mem_cons.mp hv with h | h
      · have h1 : f = e.1 := by rw [← h]
        have h2 : v = e.2 := by rw [← h]
        rw [i2 (h1 ▸ hn.1), Dict.get?_set, if_pos h1, h2]
      · exact i1 v h
    · intro hf
      rw [List.map_cons, List.mem_cons, not_or] at hf
      rw [i2 hf.2, Dict.get?_set, if_neg hf.1]

theorem updateAll_keys (d : Dict String K) (es : List (String × K)) (h : ∀ e ∈ es, e.1 ∈ d.keys) :
    (updateAll d es).keys = d.keys := by
  induction es generalizing d with
  | nil => rfl
  | cons e es ih =>
    have hk := Dict.keys_set_of_mem e.2 (h e (by simp))
    rw [updateAll, ih, hk]
    intro e' he'
    rw [hk]; exact h e' (List.mem_cons_of_mem _ he')

omit [LinearOrder K] in
theorem allSpecs_fst (conns : List (FluidBox K)) :
    (allSpecs conns).map Prod.fst = conns.flatMap FluidBox.isSet := by
  induction conns with
  | nil => rfl
  | cons c cs ih =>
    unfold allSpecs at ih ⊢
    rw [List.flatMap_cons, List.flatMap_cons, List.map_append, ih]
    congr 1
    rw [List.map_map]
    exact List.map_id'' (fun _ => rfl) _

omit [LinearOrder K] in
theorem fixedFractions_perm (conns : List (FluidBox K))
    (hn : (conns.flatMap FluidBox.isSet).Nodup) :
    (fixedFractions conns (conns.flatMap FluidBox.isSet)).Perm (allSpecs conns) := by
  unfold fixedFractions allSpecs
  have key : ∀ c ∈ conns, ((conns.flatMap FluidBox.isSet).filter (· ∈ c.isSet)).Perm c.isSet := by
    intro c hc
    have hcn : c.isSet.Nodup := by
      rw [List.nodup_flatMap] at hn; exact hn.1 c hc
    rw [List.perm_ext_iff_of_nodup (hn.filter _) hcn]
    intro f
    rw [List.mem_filter]
    simp only [decide_eq_true_eq, and_iff_right_iff_imp]
    intro hf
    exact List.mem_flatMap.mpr ⟨c, hc, hf⟩
  generalize conns.flatMap FluidBox.isSet = specs at key
  clear hn
  induction conns with
  | nil => exact List.Perm.refl _
  | cons c cs ih =>
    rw [List.flatMap_cons, List.flatMap_cons]
    exact ((key c (by simp)).map _).append (ih (fun c' h => key c' (by simp [h])))

/-- the sum of all specified mass fractions -/
def specTotal (conns : List (FluidBox K)) : K := ((allSpecs conns).map Prod.snd).sum

omit [LinearOrder K] in
theorem fixed_total (conns : List (FluidBox K)) (hn : (conns.flatMap FluidBox.isSet).Nodup) :
    ((fixedFractions conns (conns.flatMap FluidBox.isSet)).map Prod.snd).sum = specTotal conns :=
  ((fixedFractions_perm conns hn).map _).sum_eq

omit [LinearOrder K] in
theorem fixed_keys (conns : List (FluidBox K)) (hn : (conns.flatMap FluidBox.isSet).Nodup) :
    ((fixedFractions conns (conns.flatMap FluidBox.isSet)).map Prod.fst).Perm
      (conns.flatMap FluidBox.isSet) := by
  have := (fixedFractions_perm conns hn).map Prod.fst
  rwa [allSpecs_fst] at this

/-- the fluids of the branch without specification -/
def openFluids (main : FluidBox K) (rest : List (FluidBox K)) : List String :=
  main.val.keys.filter (fun f => f ∉ (main :: rest).flatMap FluidBox.isSet)

omit [LinearOrder K] in
theorem missing_eq (main : FluidBox K) (rest : List (FluidBox K))
    (hn : ((main :: rest).flatMap FluidBox.isSet).Nodup) :
    main.val.keys.filter (fun f => f ∉ (fixedFractions (main :: rest)
      ((main :: rest).flatMap FluidBox.isSet)).keys) = openFluids main rest := by
  unfold openFluids
  apply List.filter_congr
  intro f _
  have := (fixed_keys (main :: rest) hn).mem_iff (a := f)
  exact decide_eq_decide.mpr (not_congr this)

omit [LinearOrder K] in
/-- number of fluids: open and specified ones -/
theorem keys_length (main : FluidBox K) (rest : List (FluidBox K))
    (hk : main.val.keys.Nodup) (hn : ((main :: rest).flatMap FluidBox.isSet).Nodup)
    (hsub : (main :: rest).flatMap FluidBox.isSet ⊆ main.val.keys) :
    main.val.keys.Perm ((main :: rest).flatMap FluidBox.isSet ++ openFluids main rest) := by
  rw [List.perm_ext_iff_of_nodup hk]
  · intro f
    simp only [openFluids, List.mem_append, List.mem_filter, decide_eq_true_eq]
    constructor
    · intro h
      by_cases hf : f ∈ (main :: rest).flatMap FluidBox.isSet
      · exact Or.inl hf
      · exact Or.inr ⟨h, hf⟩
    · rintro (h | h)
      · exact hsub h
      · exact h.1
  · rw [List.nodup_append]
    refine ⟨hn, hk.filter _, ?_⟩
    intro a ha b hb hab
    subst hab
    simp only [openFluids, List.mem_filter, decide_eq_true_eq] at hb
    exact hb.2 ha

/-- C20: a mass fraction specified twice within a branch is rejected, and so are
fractions above one in total. -/
theorem C20_rejected (ERR : K) (potential : List String) (main : FluidBox K) (rest : List (FluidBox K)) :
    (¬ ((main :: rest).flatMap FluidBox.isSet).Nodup →
      presolveFluid ERR potential main rest = .error .networkError) ∧
    (((main :: rest).flatMap FluidBox.isSet).Nodup → (main :: rest).flatMap FluidBox.isSet ≠ [] →
      specTotal (main :: rest) > 1 + ERR →
      presolveFluid ERR potential main rest = .error .valueError) := by
  constructor
  · intro h
    have h0 : ((main :: rest).flatMap FluidBox.isSet).length ≠ 0 := by
      intro e; rw [List.length_eq_zero_iff] at e; rw [e] at h; exact h List.nodup_nil
    unfold presolveFluid
    simp only
    rw [if_neg h0, if_pos h]
  · intro hn hne ht
    have h0 : ((main :: rest).flatMap FluidBox.isSet).length ≠ 0 := by
      intro e; exact hne (List.length_eq_zero_iff.mp e)
    unfold presolveFluid
    simp only
    rw [if_neg h0, if_neg (not_not_intro hn), fixed_total _ hn, if_pos ht]

/-- Everything that happens in an accepted branch with specifications. -/
theorem presolveFluid_cases (ERR : K) (potential : List String) (main : FluidBox K)
    (rest : List (FluidBox K)) (hk : main.val.keys.Nodup)
    (hne : (main :: rest).flatMap FluidBox.isSet ≠ [])
    (hsub : (main :: rest).flatMap FluidBox.isSet ⊆ main.val.keys)
    (r : FluidBox K) (hr : presolveFluid ERR potential main rest = .ok r) :
    ((main :: rest).flatMap FluidBox.isSet).Nodup ∧ ¬ specTotal (main :: rest) > 1 + ERR ∧
    ∃ extra : List (String × K),
      let es := fixedFractions (main :: rest) ((main :: rest).flatMap FluidBox.isSet) ++ extra
      r = { val := updateAll main.val es, isSet := es.map Prod.fst, isVar := r.isVar } ∧
      ((specTotal (main :: rest) < 1 - ERR ∧ ∃ f, openFluids main rest = [f] ∧
          extra = [(f, 1 - specTotal (main :: rest))] ∧ r.isVar = []) ∨
       (specTotal (main :: rest) < 1 - ERR ∧ (openFluids main rest).length ≠ 1 ∧
          extra = [] ∧ r.isVar = openFluids main rest) ∨
       (¬ specTotal (main :: rest) < 1 - ERR ∧ extra = (openFluids main rest).map (fun f => (f, 0)) ∧
          r.isVar = [])) := by
  have h0 : ((main :: rest).flatMap FluidBox.isSet).length ≠ 0 := by
    intro e; exact hne (List.length_eq_zero_iff.mp e)
  unfold presolveFluid at hr
  simp only at hr
  rw [if_neg h0] at hr
  by_cases hn : ((main :: rest).flatMap FluidBox.isSet).Nodup
  swap
  · rw [if_pos hn] at hr; simp at hr
  rw [if_neg (not_not_intro hn), fixed_total _ hn, missing_eq _ _ hn] at hr
  refine ⟨hn, ?_⟩
  have hlen : (main.val.keys.length : ℤ) -
      (fixedFractions (main :: rest) ((main :: rest).flatMap FluidBox.isSet)).length =
      (openFluids main rest).length := by
    have a := (keys_length main rest hk hn hsub).length_eq
    have b := (fixed_keys (main :: rest) hn).length_eq
    rw [List.length_map] at b
    rw [List.length_append] at a
    omega
  rw [hlen] at hr
  by_cases ht : specTotal (main :: rest) > 1 + ERR
  · rw [if_pos ht] at hr; simp at hr
  rw [if_neg ht] at hr
  refine ⟨ht, ?_⟩
  by_cases hl : specTotal (main :: rest) < 1 - ERR
  · rw [if_pos hl] at hr
    by_cases h1 : (openFluids main rest).length = 1
    · rw [if_pos (by exact_mod_cast h1)] at hr
      obtain ⟨f, hf⟩ := List.length_eq_one_iff.mp h1
      rw [hf] at hr
      simp only [Except.ok.injEq] at hr
      exact ⟨[(f, 1 - specTotal (main :: rest))], by subst hr; rfl,
        Or.inl ⟨hl, f, hf, rfl, by subst hr; rfl⟩⟩
    · rw [if_neg (by exact_mod_cast h1)] at hr
      simp only [Except.ok.injEq] at hr
      exact ⟨[], by subst hr; simp, Or.inr (Or.inl ⟨hl, h1, rfl, by subst hr; rfl⟩)⟩
  · rw [if_neg hl] at hr
    simp only [Except.ok.injEq] at hr
    exact ⟨_, by subst hr; rfl, Or.inr (Or.inr ⟨hl, rfl, by subst hr; rfl⟩)⟩

theorem extra_nodup {main : FluidBox K} {rest : List (FluidBox K)}
    (hk : main.val.keys.Nodup) (hn : ((main :: rest).flatMap FluidBox.isSet).Nodup)
    {extra : List (String × K)} (he : (extra.map Prod.fst).Sublist (openFluids main rest)) :
    ((fixedFractions (main :: rest) ((main :: rest).flatMap FluidBox.isSet) ++ extra).map Prod.fst).Nodup := by
  rw [List.map_append, List.nodup_append]
  refine ⟨(fixed_keys _ hn).nodup_iff.mpr hn, (hk.filter _).sublist he, ?_⟩
  intro a ha b hb hab
  subst hab
  rw [(fixed_keys _ hn).mem_iff] at ha
  have := he.subset hb
  simp only [openFluids, List.mem_filter, decide_eq_true_eq] at this
  exact this.2 ha

/-- C20 (accepted branches with at least one specification). The specified fractions are
kept and stay fixed. If they sum to one (within the tolerance) all other fluids are fixed
to 0. If they sum to less and exactly one fluid is open, that fluid is fixed, and the
fractions of all fluids sum to one. Otherwise exactly the open fluids are variable.

Partial: the property asks for a sum of one for every branch without variable fluids,
see `C20_incomplete_accepted`; and the request for a fluid balance is not considered by
the presolve. -/
theorem C20_completed_partial (ERR : K) (potential : List String) (main : FluidBox K)
    (rest : List (FluidBox K)) (hk : main.val.keys.Nodup)
    (hne : (main :: rest).flatMap FluidBox.isSet ≠ [])
    (hsub : (main :: rest).flatMap FluidBox.isSet ⊆ main.val.keys)
    (r : FluidBox K) (hr : presolveFluid ERR potential main rest = .ok r) :
    (∀ c ∈ main :: rest, ∀ f ∈ c.isSet, look r.val f = look c.val f ∧ f ∈ r.isSet ∧ f ∉ r.isVar) ∧
    r.val.keys = main.val.keys ∧
    (¬ specTotal (main :: rest) < 1 - ERR →
      r.isVar = [] ∧ ∀ f ∈ openFluids main rest, look r.val f = 0 ∧ f ∈ r.isSet) ∧
    (specTotal (main :: rest) < 1 - ERR → (openFluids main rest).length = 1 →
      r.isVar = [] ∧ (∀ f ∈ r.val.keys, f ∈ r.isSet) ∧ (r.val.keys.map (look r.val)).sum = 1) ∧
    (specTotal (main :: rest) < 1 - ERR → (openFluids main rest).length ≠ 1 →
      r.isVar = openFluids main rest ∧ ∀ f ∈ r.isVar, look r.val f = look main.val f) := by
  obtain ⟨hn, ht, extra, hrr, hcase⟩ := presolveFluid_cases ERR potential main rest hk hne hsub r hr
  have hval := congrArg FluidBox.val hrr
  have hset := congrArg FluidBox.isSet hrr
  simp only at hval hset
  clear hrr
  have hsubl : (extra.map Prod.fst).Sublist (openFluids main rest) := by
    rcases hcase with ⟨_, f, hf, he, _⟩ | ⟨_, _, he, _⟩ | ⟨_, he, _⟩
    · subst he; rw [hf]; exact List.Sublist.refl _
    · subst he; exact List.nil_sublist _
    · subst he; rw [List.map_map]; exact (List.map_id'' (fun _ => rfl) _).symm ▸ List.Sublist.refl _
  have hnd := extra_nodup hk hn hsubl
  have hfix : ∀ c ∈ main :: rest, ∀ f ∈ c.isSet,
      (f, look c.val f) ∈ fixedFractions (main :: rest) ((main :: rest).flatMap FluidBox.isSet) := by
    intro c hc f hf
    rw [(fixedFractions_perm _ hn).mem_iff]
    exact List.mem_flatMap.mpr ⟨c, hc, List.mem_map.mpr ⟨f, hf, rfl⟩⟩
  have hkept : ∀ c ∈ main :: rest, ∀ f ∈ c.isSet, look r.val f = look c.val f := by
    intro c hc f hf
    have := (updateAll_get? main.val _ hnd f).1 _ (List.mem_append_left _ (hfix c hc f hf))
    rw [← hval] at this
    rw [look, this]; rfl
  have hkeys : r.val.keys = main.val.keys := by
    rw [hval]
    apply updateAll_keys
    intro e he
    rcases List.mem_append.mp he with h | h
    · have : e.1 ∈ (fixedFractions (main :: rest) ((main :: rest).flatMap FluidBox.isSet)).map Prod.fst :=
        List.mem_map_of_mem h
      rw [(fixed_keys _ hn).mem_iff] at this
      exact hsub this
    · have := hsubl.subset (List.mem_map_of_mem (f := Prod.fst) h)
      exact List.mem_of_mem_filter this
  refine ⟨?_, hkeys, ?_, ?_, ?_⟩
  · intro c hc f hf
    refine ⟨hkept c hc f hf, ?_, ?_⟩
    · rw [hset, List.map_append]
      exact List.mem_append_left _ (List.mem_map.mpr ⟨_, hfix c hc f hf, rfl⟩)
    · have hno : f ∉ openFluids main rest := by
        intro h
        simp only [openFluids, List.mem_filter, decide_eq_true_eq] at h
        exact h.2 (List.mem_flatMap.mpr ⟨c, hc, hf⟩)
      rcases hcase with ⟨_, _, _, _, hv⟩ | ⟨_, _, _, hv⟩ | ⟨_, _, hv⟩ <;> rw [hv]
      · simp
      · exact hno
      · simp
  · intro hl
    rcases hcase with ⟨h, _⟩ | ⟨h, _⟩ | ⟨_, he, hv⟩
    · exact absurd h hl
    · exact absurd h hl
    · refine ⟨hv, fun f hf => ?_⟩
      have hm : (f, (0 : K)) ∈ extra := by rw [he]; exact List.mem_map.mpr ⟨f, hf, rfl⟩
      have := (updateAll_get? main.val _ hnd f).1 _ (List.mem_append_right _ hm)
      rw [← hval] at this
      refine ⟨by rw [look, this]; rfl, ?_⟩
      rw [hset, List.map_append]
      exact List.mem_append_right _ (List.mem_map.mpr ⟨_, hm, rfl⟩)
  · intro hl h1
    rcases hcase with ⟨_, f, hf, he, hv⟩ | ⟨_, h, _⟩ | ⟨h, _⟩
    · have hp := keys_length main rest hk hn hsub
      have hfv : look r.val f = 1 - specTotal (main :: rest) := by
        have := (updateAll_get? main.val _ hnd f).1 (1 - specTotal (main :: rest))
          (List.mem_append_right _ (by rw [he]; simp))
        rw [← hval] at this
        rw [look, this]; rfl
      refine ⟨hv, ?_, ?_⟩
      · intro g hg
        rw [hkeys, hp.mem_iff, hf, List.mem_append] at hg
        rw [hset, List.map_append, List.mem_append]
        rcases hg with hg | hg
        · exact Or.inl ((fixed_keys _ hn).mem_iff.mpr hg)
        · right; rw [he]; simpa using hg
      · rw [hkeys, (hp.map (look r.val)).sum_eq, hf, List.map_append, List.sum_append]
        have : (((main :: rest).flatMap FluidBox.isSet).map (look r.val)) = (allSpecs (main :: rest)).map Prod.snd := by
          have gen : ∀ cs : List (FluidBox K), (∀ c ∈ cs, ∀ f ∈ c.isSet, look r.val f = look c.val f) →
              (cs.flatMap FluidBox.isSet).map (look r.val) = (allSpecs cs).map Prod.snd := by
            intro cs
            induction cs with
            | nil => intro _; rfl
            | cons c cs ih =>
              intro h
              have h' := ih (fun c' hc' => h c' (List.mem_cons_of_mem _ hc'))
              unfold allSpecs at h' ⊢
              rw [List.flatMap_cons, List.flatMap_cons, List.map_append, List.map_append, h']
              congr 1
              rw [List.map_map]
              apply List.map_congr_left
              intro f hf
              exact h c (by simp) f hf
          exact gen _ hkept
        rw [this]
        simp only [List.map_cons, List.map_nil, List.sum_cons, List.sum_nil, hfv]
        rw [specTotal]; ring
    · exact absurd h1 h
    · exact absurd hl h
  · intro hl h1
    rcases hcase with ⟨_, f, hf, _, _⟩ | ⟨_, h, he, hv⟩ | ⟨h, _⟩
    · rw [hf] at h1; simp at h1
    · refine ⟨hv, fun f hf => ?_⟩
      rw [hv] at hf
      have hno : f ∉ (fixedFractions (main :: rest) ((main :: rest).flatMap FluidBox.isSet) ++ extra).map Prod.fst := by
        rw [he, List.append_nil, (fixed_keys _ hn).mem_iff]
        simp only [openFluids, List.mem_filter, decide_eq_true_eq] at hf
        exact hf.2
      have := (updateAll_get? main.val _ hnd f).2 hno
      rw [← hval] at this
      rw [look, look, this]
    · exact absurd hl h

/-- C20 (no specification in the branch): with more than one potential fluid every fluid
is variable, a single potential fluid gets the mass fraction one. -/
theorem C20_unspecified (ERR : K) (potential : List String) (main : FluidBox K)
    (rest : List (FluidBox K)) (h0 : ∀ c ∈ main :: rest, c.isSet = []) :
    (potential.length > 1 → ∃ r, presolveFluid ERR potential main rest = .ok r ∧
      r.isVar = main.val.keys ∧ r.val = main.val) ∧
    (∀ f, potential = [f] → ∃ r, presolveFluid ERR potential main rest = .ok r ∧
      look r.val f = 1 ∧ r.isVar = main.isVar) := by
  have h : ((main :: rest).flatMap FluidBox.isSet).length = 0 := by
    rw [List.length_eq_zero_iff, List.flatMap_eq_nil_iff]; exact h0
  constructor
  · intro hp
    unfold presolveFluid
    simp only
    rw [if_pos h, if_pos hp]
    exact ⟨_, rfl, rfl, rfl⟩
  · intro f hf
    subst hf
    unfold presolveFluid
    simp only
    rw [if_pos h, if_neg (by simp)]
    refine ⟨_, rfl, ?_, rfl⟩
    rw [look, Dict.get?_set, if_pos rfl]; rfl

/-- C20, refuted part: a branch in which every fluid has a specified fraction, but with
a sum below one, is accepted: no fluid is variable and the fractions sum to `1/2`. -/
theorem C20_incomplete_accepted :
    ∃ (main r : FluidBox ℚ), presolveFluid (1/1000000) ["water"] main [] = .ok r ∧
      r.isVar = [] ∧ (r.val.keys.map (look r.val)).sum = 1/2 :=
  ⟨⟨[("water", 1/2)], ["water"], []⟩, ⟨[("water", 1/2)], ["water"], []⟩, by decide +kernel⟩

-- non-vacuity: N2 is given on the first, O2 on the second connection, CO2 is open
example : let a : FluidBox ℚ := ⟨[("N2", 7/10), ("O2", 1/3), ("CO2", 1/3)], ["N2"], []⟩
    let b : FluidBox ℚ := ⟨[("N2", 1/3), ("O2", 1/5), ("CO2", 1/3)], ["O2"], []⟩
    presolveFluid (1/1000000) ["N2", "O2", "CO2"] a [b] =
      .ok ⟨[("N2", 7/10), ("O2", 1/5), ("CO2", 1/10)], ["N2", "O2", "CO2"], []⟩ ∧
    openFluids a [b] = ["CO2"] ∧ ([a, b].flatMap FluidBox.isSet) ⊆ a.val.keys := by
  decide +kernel

end Tespy
