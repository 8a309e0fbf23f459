import Mathlib.Tactic.Ring
import Mathlib.Algebra.BigOperators.Ring.List
import Mathlib.Tactic.LinearCombination
import Verif.Props.EqCount
/-
C34, C35, C36, C38: what vanishing residuals of the nodes and reactors mean.
-/
namespace Tespy

/-! ## Specification: balances of a component with inlets and outlets -/
namespace Spec
variable {K : Type} [CommRing K]

/-- the mass flows into and out of the component agree -/
def MassBalance (s : EqState K) (inl outl : List Port) : Prop :=
  (inl.map s.mv).sum = (outl.map s.mv).sum

/-- the mass flows of one fluid into and out of the component agree -/
def SpeciesBalance (s : EqState K) (f : String) (inl outl : List Port) : Prop :=
  (inl.map (fun c => s.xv c f * s.mv c)).sum = (outl.map (fun c => s.xv c f * s.mv c)).sum

/-- the energy flows into and out of the component agree -/
def EnergyBalance (s : EqState K) (inl outl : List Port) : Prop :=
  (inl.map (fun c => s.mv c * s.hv c)).sum = (outl.map (fun c => s.mv c * s.hv c)).sum

/-- one pressure at all connections -/
def SamePressure (s : EqState K) (ports : List Port) : Prop :=
  ∀ c ∈ ports, ∀ d ∈ ports, s.pv c = s.pv d

/-- the fractions at a connection add up to one -/
def SumOne (s : EqState K) (c : Port) : Prop := ((s.keys c.fl).map (s.xv c)).sum = 1

/-- All rows of the component are zero. -/
def Solved (F : PropFuncs K) (s : EqState K) (d : Dev K) : Prop :=
  ∃ rows, d.rows F s = .ok rows ∧ ∀ r ∈ rows, r = 0
end Spec

section
variable {K : Type} [CommRing K]

/-- entries of a residual -/
def Resid.toList : Resid K → List K
  | .scalar x => [x]
  | .vec l => l

theorem fillRows_zero (n : ℕ) (hn : n > 0) (r : Resid K) (rows : List K)
    (h : fillRows n r = .ok rows) (hz : ∀ x ∈ rows, x = 0) : ∀ x ∈ r.toList, x = 0 := by
  cases r with
  | scalar x =>
    simp only [fillRows, Except.ok.injEq] at h
    subst h
    intro y hy
    simp only [Resid.toList, List.mem_singleton] at hy
    subst hy
    exact hz _ (List.mem_replicate.mpr ⟨by omega, rfl⟩)
  | vec l =>
    simp only [fillRows] at h
    split at h
    · simp only [Except.ok.injEq] at h; subst h; exact hz
    · split at h
      · rename_i x _
        simp only [Except.ok.injEq] at h; subst h
        intro y hy
        simp only [Resid.toList, List.mem_singleton] at hy
        subst hy
        exact hz _ (List.mem_replicate.mpr ⟨by omega, rfl⟩)
      · cases h

theorem fillAll_zero (cs : List (Cons K)) (rows : List K) (h : fillAll cs = .ok rows)
    (hz : ∀ x ∈ rows, x = 0) : ∀ c ∈ cs, c.1 > 0 → ∀ x ∈ c.2.toList, x = 0 := by
  induction cs generalizing rows with
  | nil => simp
  | cons c cs ih =>
    obtain ⟨n, r⟩ := c
    simp only [fillAll] at h
    by_cases hn : n > 0
    · simp only [hn, if_true] at h
      cases hf : fillRows n r with
      | error e => rw [hf] at h; cases h
      | ok r1 =>
        rw [hf] at h
        simp only at h
        cases hr : fillAll cs with
        | error e => rw [hr] at h; cases h
        | ok r2 =>
          rw [hr] at h
          simp only [Except.ok.injEq] at h
          subst h
          intro c hc hcn
          rcases List.mem_cons.mp hc with rfl | hc
          · exact fillRows_zero n hn r r1 hf (fun x hx => hz x (by simp [hx]))
          · exact ih r2 hr (fun x hx => hz x (by simp [hx])) c hc hcn
    · simp only [hn, if_false, List.nil_append] at h
      cases hr : fillAll cs with
      | error e => rw [hr] at h; cases h
      | ok r2 =>
        rw [hr] at h
        simp only [Except.ok.injEq] at h
        subst h
        intro c hc hcn
        rcases List.mem_cons.mp hc with rfl | hc
        · exact absurd hcn hn
        · exact ih r2 hr hz c hc hcn

theorem solved_zero (F : PropFuncs K) (s : EqState K) (d : Dev K) (h : Spec.Solved F s d)
    (cs : List (Cons K)) (hc : d.constraints F s = .ok cs) (c : Cons K) (hm : c ∈ cs)
    (hp : c.1 > 0) : ∀ x ∈ c.2.toList, x = 0 := by
  obtain ⟨rows, h1, h2⟩ := h
  unfold Dev.rows at h1
  rw [hc] at h1
  exact fillAll_zero cs rows h1 h2 c hm hp

theorem solved_constraints (F : PropFuncs K) (s : EqState K) (d : Dev K) (h : Spec.Solved F s d) :
    ∃ cs, d.constraints F s = .ok cs := by
  obtain ⟨rows, h1, -⟩ := h
  unfold Dev.rows at h1
  cases hc : d.constraints F s with
  | error e => rw [hc] at h1; cases h1
  | ok cs => exact ⟨cs, rfl⟩

theorem foldl_add_map {α : Type} (l : List α) (f : α → K) (a : K) :
    l.foldl (fun r x => r + f x) a = a + (l.map f).sum := by
  induction l generalizing a with
  | nil => simp
  | cons x l ih => rw [List.foldl_cons, ih, List.map_cons, List.sum_cons]; ring

theorem foldl_sub_map {α : Type} (l : List α) (f : α → K) (a : K) :
    l.foldl (fun r x => r - f x) a = a - (l.map f).sum := by
  induction l generalizing a with
  | nil => simp
  | cons x l ih => rw [List.foldl_cons, ih, List.map_cons, List.sum_cons]; ring

theorem nodeMass_zero (s : EqState K) (inl outl : List Port) :
    (∀ x ∈ (nodeMass s inl outl).toList, x = 0) ↔ Spec.MassBalance s inl outl := by
  simp only [nodeMass, Resid.toList, List.mem_singleton, forall_eq, foldl_add_map, foldl_sub_map,
    Spec.MassBalance, zero_add, sub_eq_zero]

theorem nodeEnergy_zero (s : EqState K) (inl outl : List Port) :
    (∀ x ∈ (nodeEnergy s inl outl).toList, x = 0) ↔ Spec.EnergyBalance s inl outl := by
  simp only [nodeEnergy, Resid.toList, List.mem_singleton, forall_eq, foldl_add_map, foldl_sub_map,
    Spec.EnergyBalance, zero_add, sub_eq_zero]

theorem nodePressure_zero (s : EqState K) (i0 : Port) (inl outl : List Port) :
    (∀ x ∈ (nodePressure s i0 inl outl).toList, x = 0) ↔
      Spec.SamePressure s (i0 :: inl ++ outl) := by
  simp only [nodePressure, Resid.toList, List.forall_mem_map, sub_eq_zero, Spec.SamePressure]
  constructor
  · intro h c hc d hd
    have key : ∀ c ∈ i0 :: inl ++ outl, s.pv i0 = s.pv c := by
      intro c hc
      rw [List.cons_append, List.mem_cons] at hc
      rcases hc with rfl | hc
      · rfl
      · exact h c hc
    rw [← key c hc, ← key d hd]
  · intro h c hc
    exact h i0 (by simp) c (by simp at hc ⊢; tauto)

theorem sum_swap {α β : Type} (l : List α) (k : List β) (f : α → β → K) :
    (k.map (fun b => (l.map (fun a => f a b)).sum)).sum
      = (l.map (fun a => (k.map (fun b => f a b)).sum)).sum := by
  induction l with
  | nil => simp
  | cons a l ih =>
    simp only [List.map_cons, List.sum_cons]
    rw [← ih]
    clear ih
    induction k with
    | nil => simp
    | cons b k ih => simp only [List.map_cons, List.sum_cons, ih]; ring

theorem sum_frac_mul (s : EqState K) (c : Port) (h : Spec.SumOne s c) :
    ((s.keys c.fl).map (fun f => s.xv c f * s.mv c)).sum = s.mv c := by
  have : ((s.keys c.fl).map (fun f => s.xv c f * s.mv c)).sum
      = ((s.keys c.fl).map (s.xv c)).sum * s.mv c := List.sum_map_mul_right ..
  rw [this, h, one_mul]

/-- If every species and every composition adds up, the total mass does. -/
theorem mass_of_species (s : EqState K) (ks : List String) (inl outl : List Port)
    (hk : ∀ c ∈ inl ++ outl, s.keys c.fl = ks) (h1 : ∀ c ∈ inl ++ outl, Spec.SumOne s c)
    (hs : ∀ f ∈ ks, Spec.SpeciesBalance s f inl outl) : Spec.MassBalance s inl outl := by
  have key : ∀ l : List Port, (∀ c ∈ l, c ∈ inl ++ outl) →
      (ks.map (fun f => (l.map (fun c => s.xv c f * s.mv c)).sum)).sum = (l.map s.mv).sum := by
    intro l hl
    rw [sum_swap]
    congr 1
    apply List.map_congr_left
    intro c hc
    have := sum_frac_mul s c (h1 c (hl c hc))
    rwa [hk c (hl c hc)] at this
  unfold Spec.MassBalance
  rw [← key inl (fun c hc => by simp [hc]), ← key outl (fun c hc => by simp [hc])]
  congr 1
  apply List.map_congr_left
  exact hs

/-! ## C34 merge -/

theorem mergeFluid_ok (s : EqState K) (inl : List Port) (o : Port)
    (hk : ∀ i ∈ inl, s.keys i.fl = s.keys o.fl) :
    mergeFluid s inl o = .ok (.vec ((s.keys o.fl).map (fun f =>
      inl.foldl (fun r i => r + s.xv i f * s.mv i) (-(s.xv o f) * s.mv o)))) := by
  unfold mergeFluid
  rw [if_pos]
  rw [List.all_eq_true]
  intro i hi
  rw [hk i hi]
  simp

/-- C34: a solved merge conserves mass, every species and energy, and all its pressures are
equal, for any number of inlets and fluids and any pattern of variable fluids. (That the
rows can be filled at all is the subject of `C30_merge_iff`.) -/
theorem C34_merge_balances (F : PropFuncs K) (s : EqState K) (i0 : Port) (inl : List Port)
    (o : Port) (hk : ∀ i ∈ i0 :: inl, s.keys i.fl = s.keys o.fl)
    (h1 : ∀ c ∈ i0 :: inl ++ [o], Spec.SumOne s c)
    (h : Spec.Solved F s (.merge i0 inl o)) :
    Spec.MassBalance s (i0 :: inl) [o] ∧
    (∀ f ∈ s.keys o.fl, Spec.SpeciesBalance s f (i0 :: inl) [o]) ∧
    Spec.EnergyBalance s (i0 :: inl) [o] ∧
    Spec.SamePressure s (i0 :: inl ++ [o]) := by
  obtain ⟨cs, hc⟩ := solved_constraints F s _ h
  have hz := solved_zero F s _ h cs hc
  simp only [Dev.constraints, mergeFluid_ok s (i0 :: inl) o hk, Except.ok.injEq] at hc
  subst hc
  simp only [List.mem_cons, List.not_mem_nil, or_false, forall_eq_or_imp, forall_eq] at hz
  obtain ⟨hm, hf, he, hp⟩ := hz
  have hspecies : ∀ f ∈ s.keys o.fl, Spec.SpeciesBalance s f (i0 :: inl) [o] := by
    intro f hfk
    have hpos : (if (varSet s (i0 :: inl ++ [o])).length = 0 then (s.keys i0.fl).length
        else (varSet s (i0 :: inl ++ [o])).length) > 0 := by
      split
      · rw [hk i0 (by simp)]
        exact List.length_pos_of_mem hfk
      · omega
    have := hf hpos _ (List.mem_map.mpr ⟨f, hfk, rfl⟩)
    rw [foldl_add_map] at this
    unfold Spec.SpeciesBalance
    simp only [List.map_cons, List.map_nil, List.sum_cons, List.sum_nil, add_zero] at this ⊢
    linear_combination this
  refine ⟨?_, hspecies, ?_, ?_⟩
  · by_cases hv : (varSet s (i0 :: inl ++ [o])).length = 0
    · apply mass_of_species s (s.keys o.fl) (i0 :: inl) [o] _ h1 hspecies
      intro c hc
      rcases List.mem_append.mp hc with hc | hc
      · exact hk c hc
      · rw [List.mem_singleton.mp hc]
    · exact (nodeMass_zero s (i0 :: inl) [o]).mp (hm (by rw [if_neg hv]; decide))
  · have := he (by decide)
    simp only [mergeEnergy, Resid.toList, List.mem_singleton, forall_eq, foldl_add_map] at this
    unfold Spec.EnergyBalance
    simp only [List.map_cons, List.map_nil, List.sum_cons, List.sum_nil, add_zero] at this ⊢
    linear_combination this
  · exact (nodePressure_zero s i0 inl [o]).mp (hp (by simp))

end

/-- Two streams of nitrogen and oxygen merge. -/
def exMerge2 : EqState ℚ :=
  exState (fun i => if i = 2 then 4 else if i = 1 then 3 else 1) (fun _ => 5)
    (fun i => if i = 2 then 13 else if i = 1 then 14 else 10)
    (fun i f => if i = 2 then 1/2 else if i = 1 then (if f = "N2" then 2/3 else 1/3)
      else (if f = "N2" then 0 else 1))
    (fun _ => ["N2", "O2"]) (fun i => if i = 2 then ["N2", "O2"] else []) (fun _ => true)

example : Spec.Solved exProps exMerge2 (.merge (port 0) [port 1] (port 2)) :=
  ⟨[0, 0, 0, 0, 0, 0], by decide +kernel, by simp⟩

example : ∀ c ∈ [port 0, port 1, port 2], Spec.SumOne exMerge2 c := by
  unfold Spec.SumOne; decide +kernel

/-! ## C35 splitter and separator -/
section
variable {K : Type} [CommRing K]

/-- C35 (splitter): mass and energy are conserved, enthalpies and pressures agree. -/
theorem C35_splitter (F : PropFuncs K) (s : EqState K) (i : Port) (outl : List Port)
    (h : Spec.Solved F s (.splitter i outl)) :
    Spec.MassBalance s [i] outl ∧ (∀ o ∈ outl, s.hv o = s.hv i) ∧
    Spec.EnergyBalance s [i] outl ∧ Spec.SamePressure s (i :: outl) := by
  obtain ⟨cs, hc⟩ := solved_constraints F s _ h
  have hz := solved_zero F s _ h cs hc
  simp only [Dev.constraints, Except.ok.injEq] at hc
  subst hc
  simp only [List.mem_cons, List.not_mem_nil, or_false, forall_eq_or_imp, forall_eq] at hz
  obtain ⟨hm, he, hp⟩ := hz
  have hmass : Spec.MassBalance s [i] outl := (nodeMass_zero s [i] outl).mp (hm (by decide))
  have hh : ∀ o ∈ outl, s.hv o = s.hv i := by
    intro o ho
    have := he (List.length_pos_of_mem ho) _ (List.mem_map.mpr ⟨o, ho, rfl⟩)
    exact (sub_eq_zero.mp this).symm
  refine ⟨hmass, hh, ?_, ?_⟩
  · unfold Spec.EnergyBalance
    have : outl.map (fun c => s.mv c * s.hv c) = outl.map (fun c => s.mv c * s.hv i) :=
      List.map_congr_left (fun c hc => by rw [hh c hc])
    rw [this, List.sum_map_mul_right]
    unfold Spec.MassBalance at hmass
    have hfun : (fun c => s.mv c) = s.mv := rfl
    simp only [hfun, ← hmass, List.map_cons, List.map_nil, List.sum_cons, List.sum_nil, add_zero]
  · by_cases ho : outl = []
    · subst ho
      intro c hc d hd
      simp only [List.mem_cons, List.not_mem_nil, or_false] at hc hd
      rw [hc, hd]
    · have hpos : [i].length + outl.length - 1 > 0 := by
        have := List.length_pos_iff.mpr ho
        simp; omega
      exact (nodePressure_zero s i [] outl).mp (hp hpos)

/-- the fluids with an equation in a separator -/
def sepFluids (s : EqState K) (i : Port) (outl : List Port) : List String :=
  if (varSet s (i :: outl)).length = 0 then (s.fixed i.fl).take 1 else varSet s (i :: outl)

/-- C35 (separator): mass is conserved, temperatures and pressures agree, and every fluid
with an equation is conserved. Full statement: every fluid is conserved; this needs all but
one of the fluids to have an equation, see `C35_separator_all_partial` and the counterexample
`C35_separator_loses_species`. -/
theorem C35_separator_partial (F : PropFuncs K) (s : EqState K) (i : Port) (outl : List Port)
    (hne : outl ≠ []) (h : Spec.Solved F s (.separator i outl)) :
    Spec.MassBalance s [i] outl ∧ (∀ o ∈ outl, s.tv F o = s.tv F i) ∧
    Spec.SamePressure s (i :: outl) ∧
    (∀ f ∈ sepFluids s i outl, Spec.SpeciesBalance s f [i] outl) := by
  obtain ⟨cs, hc⟩ := solved_constraints F s _ h
  have hz := solved_zero F s _ h cs hc
  have hcs : cs = [(1, nodeMass s [i] outl),
      ((sepFluids s i outl).length, sepFluid s (sepFluids s i outl) i outl),
      (outl.length, sepEnergy F s i outl),
      ([i].length + outl.length - 1, nodePressure s i [] outl)] := by
    simp only [Dev.constraints] at hc
    unfold sepFluids
    split at hc
    · rename_i hv
      split at hc
      · rename_i f fs hf
        simp only [Except.ok.injEq] at hc
        rw [← hc, if_pos hv, hf]
        simp
      · cases hc
    · rename_i hv
      simp only [Except.ok.injEq] at hc
      rw [← hc, if_neg hv]
  subst hcs
  simp only [List.mem_cons, List.not_mem_nil, or_false, forall_eq_or_imp, forall_eq] at hz
  obtain ⟨hm, hf, he, hp⟩ := hz
  have hlen := List.length_pos_iff.mpr hne
  refine ⟨(nodeMass_zero s [i] outl).mp (hm (by decide)), ?_, ?_, ?_⟩
  · intro o ho
    have := he hlen _ (List.mem_map.mpr ⟨o, ho, rfl⟩)
    exact (sub_eq_zero.mp this).symm
  · exact (nodePressure_zero s i [] outl).mp (hp (by simp; omega))
  · intro f hfm
    have := hf (List.length_pos_of_mem hfm) _ (List.mem_map.mpr ⟨f, hfm, rfl⟩)
    rw [foldl_sub_map, sub_eq_zero] at this
    unfold Spec.SpeciesBalance
    simpa using this

theorem sum_eq_of_one_missing (ks : List String) (hn : ks.Nodup) (a b : String → K) (g : String)
    (hg : g ∈ ks) (hsum : (ks.map a).sum = (ks.map b).sum) (h : ∀ f ∈ ks, f ≠ g → a f = b f) :
    a g = b g := by
  induction ks with
  | nil => simp at hg
  | cons k ks ih =>
    simp only [List.nodup_cons] at hn
    simp only [List.map_cons, List.sum_cons] at hsum
    rcases List.mem_cons.mp hg with rfl | hg'
    · have : ks.map a = ks.map b :=
        List.map_congr_left (fun f hf => h f (by simp [hf]) (fun e => hn.1 (e ▸ hf)))
      rw [this] at hsum
      exact add_right_cancel hsum
    · have hk : k ≠ g := fun e => hn.1 (e ▸ hg')
      have := h k (by simp) hk
      rw [this] at hsum
      exact ih hn.2 hg' (add_left_cancel hsum) (fun f hf hfg => h f (by simp [hf]) hfg)

/-- C35 (separator, all fluids): if the compositions add up to one and all fluids except at
most one have an equation, every fluid is conserved. -/
theorem C35_separator_all_partial (F : PropFuncs K) (s : EqState K) (i : Port) (outl : List Port)
    (hne : outl ≠ []) (hk : ∀ o ∈ outl, s.keys o.fl = s.keys i.fl) (hnd : (s.keys i.fl).Nodup)
    (h1 : ∀ c ∈ i :: outl, Spec.SumOne s c) (g : String)
    (hg : ∀ f ∈ s.keys i.fl, f ≠ g → f ∈ sepFluids s i outl)
    (h : Spec.Solved F s (.separator i outl)) :
    ∀ f ∈ s.keys i.fl, Spec.SpeciesBalance s f [i] outl := by
  obtain ⟨hm, -, -, hf⟩ := C35_separator_partial F s i outl hne h
  intro f hfk
  by_cases hfg : f = g
  · subst hfg
    unfold Spec.SpeciesBalance
    refine sum_eq_of_one_missing (s.keys i.fl) hnd
      (fun f => ([i].map (fun c => s.xv c f * s.mv c)).sum)
      (fun f => (outl.map (fun c => s.xv c f * s.mv c)).sum) f hfk ?_
      (fun f' h1 h2 => hf f' (hg f' h1 h2))
    have key : ∀ l : List Port, (∀ c ∈ l, c ∈ i :: outl) →
        (l.map (fun c => ((s.keys i.fl).map (fun f => s.xv c f * s.mv c)).sum)).sum
          = (l.map s.mv).sum := by
      intro l hl
      congr 1
      apply List.map_congr_left
      intro c hc
      have hkc : s.keys c.fl = s.keys i.fl := by
        rcases List.mem_cons.mp (hl c hc) with rfl | h
        · rfl
        · exact hk c h
      rw [← hkc]
      exact sum_frac_mul s c (h1 c (hl c hc))
    rw [sum_swap [i], sum_swap outl, key [i] (by simp), key outl (fun c hc => by simp [hc])]
    exact hm
  · exact hf f (hg f hfk hfg)

end

/-- A separator with three fluids and specified composition everywhere. -/
def exSep : EqState ℚ :=
  exState (fun i => if i = 0 then 2 else 1) (fun _ => 1) (fun _ => 1)
    (fun i f => if f = "N2" then 1/2 else if i = 0 then 1/4 else if f = "O2" then 1/2 else 0)
    (fun _ => ["N2", "O2", "CO2"]) (fun _ => []) (fun _ => true)

/-- C35 is false for the separator: with three fluids and fully specified compositions all
equations are satisfied although carbon dioxide disappears. -/
theorem C35_separator_loses_species :
    Spec.Solved exProps exSep (.separator (port 0) [port 1, port 2]) ∧
    (∀ c ∈ [port 0, port 1, port 2], Spec.SumOne exSep c) ∧
    ¬ Spec.SpeciesBalance exSep "CO2" [port 0] [port 1, port 2] := by
  refine ⟨⟨[0, 0, 0, 0, 0, 0], by decide +kernel, by simp⟩, by unfold Spec.SumOne; decide +kernel, ?_⟩
  unfold Spec.SpeciesBalance
  decide +kernel

/-- A separator with variable compositions. -/
def exSep2 : EqState ℚ :=
  exState (fun i => if i = 0 then 2 else 1) (fun _ => 1) (fun _ => 1)
    (fun i f => if i = 0 then 1/2 else if i = 1 then (if f = "N2" then 1 else 0)
      else (if f = "N2" then 0 else 1))
    (fun _ => ["N2", "O2"]) (fun i => if i = 2 then ["N2", "O2"] else []) (fun _ => true)

example : Spec.Solved exProps exSep2 (.separator (port 0) [port 1, port 2]) ∧
    sepFluids exSep2 (port 0) [port 1, port 2] = ["N2", "O2"] ∧
    Spec.Solved exProps exSep2 (.splitter (port 0) [port 1, port 2]) :=
  ⟨⟨[0, 0, 0, 0, 0, 0, 0], by decide +kernel, by simp⟩, by decide +kernel,
    ⟨[0, 0, 0, 0, 0], by decide +kernel, by simp⟩⟩

/-! ## C36 drum and droplet separator -/
section
variable {K : Type} [CommRing K]

/-- C36 (drum): mass and energy are conserved, pressures agree, and the outlets are saturated
liquid and saturated gas; also if the circulating inlet and outlet have one mass flow. In
this case the feed and the steam outlet have one mass flow as well, because the branch search
continues the feed branch at the steam outlet (components/nodes/drum.py 364-372). -/
theorem C36_drum (F : PropFuncs K) (s : EqState K) (i0 i1 o0 o1 : Port)
    (hb : i1.m = o0.m → i0.m = o1.m) (h : Spec.Solved F s (.drum i0 i1 o0 o1)) :
    Spec.MassBalance s [i0, i1] [o0, o1] ∧ Spec.EnergyBalance s [i0, i1] [o0, o1] ∧
    Spec.SamePressure s [i0, i1, o0, o1] ∧
    s.hv o0 = F.hPQ (s.xv o0) (s.pv o0) false ∧ s.hv o1 = F.hPQ (s.xv o1) (s.pv o1) true := by
  obtain ⟨cs, hc⟩ := solved_constraints F s _ h
  have hz := solved_zero F s _ h cs hc
  simp only [Dev.constraints, Except.ok.injEq] at hc
  subst hc
  simp only [List.mem_cons, List.not_mem_nil, or_false, forall_eq_or_imp, forall_eq] at hz
  obtain ⟨hm, he, hp, hs⟩ := hz
  have he' := he (by decide)
  have hs' := hs (by decide)
  simp only [outletStates, Resid.toList, List.mem_cons, List.not_mem_nil, or_false,
    forall_eq_or_imp, forall_eq, sub_eq_zero] at hs'
  refine ⟨?_, ?_, (nodePressure_zero s i0 [i1] [o0, o1]).mp (hp (by simp)), hs'.1.symm,
    hs'.2.symm⟩
  · by_cases hsh : i1.m = o0.m
    · have := hb hsh
      simp [Spec.MassBalance, EqState.mv, hsh, this, add_comm]
    · have hm' := hm (by simp [hsh])
      simp only [drumMass, if_neg hsh] at hm'
      exact (nodeMass_zero s _ _).mp hm'
  · by_cases hsh : i1.m = o0.m
    · have hb' := hb hsh
      simp only [drumEnergy, if_pos hsh, Resid.toList, List.mem_singleton, forall_eq] at he'
      simp only [Spec.EnergyBalance, List.map_cons, List.map_nil, List.sum_cons, List.sum_nil,
        add_zero]
      simp only [EqState.mv, hsh, hb'] at he' ⊢
      linear_combination he'
    · simp only [drumEnergy, if_neg hsh] at he'
      exact (nodeEnergy_zero s _ _).mp he'

/-- C36 (droplet separator) -/
theorem C36_droplet_separator (F : PropFuncs K) (s : EqState K) (i o0 o1 : Port)
    (h : Spec.Solved F s (.dropletSeparator i o0 o1)) :
    Spec.MassBalance s [i] [o0, o1] ∧ Spec.EnergyBalance s [i] [o0, o1] ∧
    Spec.SamePressure s [i, o0, o1] ∧
    s.hv o0 = F.hPQ (s.xv o0) (s.pv o0) false ∧ s.hv o1 = F.hPQ (s.xv o1) (s.pv o1) true := by
  obtain ⟨cs, hc⟩ := solved_constraints F s _ h
  have hz := solved_zero F s _ h cs hc
  simp only [Dev.constraints, Except.ok.injEq] at hc
  subst hc
  simp only [List.mem_cons, List.not_mem_nil, or_false, forall_eq_or_imp, forall_eq] at hz
  obtain ⟨hm, he, hp, hs⟩ := hz
  have hs' := hs (by decide)
  simp only [outletStates, Resid.toList, List.mem_cons, List.not_mem_nil, or_false,
    forall_eq_or_imp, forall_eq, sub_eq_zero] at hs'
  exact ⟨(nodeMass_zero s _ _).mp (hm (by decide)), (nodeEnergy_zero s _ _).mp (he (by decide)),
    (nodePressure_zero s i [] [o0, o1]).mp (hp (by simp)), hs'.1.symm, hs'.2.symm⟩
end

/-- A drum with a natural circulation of one branch: feed and steam hold container 0, the
circulation container 1. -/
def exDrumState : EqState ℚ :=
  exState (fun i => if i = 0 then 2 else 6) (fun _ => 5)
    (fun i => if i = 0 then 3 else if i = 1 then 6 else if i = 2 then 5 else 6) (fun _ _ => 1)
    (fun _ => ["water"]) (fun _ => []) (fun _ => true)

example : Spec.Solved exProps exDrumState (.drum ⟨0, 0, 0, 0⟩ ⟨1, 1, 1, 0⟩ ⟨1, 2, 2, 0⟩ ⟨0, 3, 3, 0⟩) :=
  ⟨[0, 0, 0, 0, 0, 0], by decide +kernel, by simp⟩

/-- A drum with separate mass flows -/
def exDrumState2 : EqState ℚ :=
  exState (fun i => if i = 0 ∨ i = 3 then 2 else 6) (fun _ => 5)
    (fun i => if i = 0 then 3 else if i = 1 then 6 else if i = 2 then 5 else 6) (fun _ _ => 1)
    (fun _ => ["water"]) (fun _ => []) (fun _ => true)

example : Spec.Solved exProps exDrumState2 (.drum (port 0) (port 1) (port 2) (port 3)) :=
  ⟨[0, 0, 0, 0, 0, 0, 0], by decide +kernel, by simp⟩

example : Spec.Solved exProps (exState (fun i => if i = 0 then 2 else 1) (fun _ => 4)
    (fun i => if i = 0 then 9/2 else if i = 1 then 4 else 5) (fun _ _ => 1)
    (fun _ => ["water"]) (fun _ => []) (fun _ => true))
    (.dropletSeparator (port 0) (port 1) (port 2)) :=
  ⟨[0, 0, 0, 0, 0, 0], by decide +kernel, by simp⟩

/-! ## C38 electrolyzer and fuel cell -/
section
variable {K : Type} [CommRing K]

/-- C38 (electrolyzer): the number of equations always agrees (`C30_mandatory`); if at least
one of water and oxygen and one of water and hydrogen is variable, mass is conserved with
the stoichiometric ratio. -/
theorem C38_electrolyzer_partial (F : PropFuncs K) (s : EqState K) (i0 i1 o0 o1 o2 : Port) (r : K)
    (energy : EqState K → K) (h : Spec.Solved F s (.electrolyzer i0 i1 o0 o1 o2 r energy))
    (hv1 : s.isVar (.m i1.m) = true ∨ s.isVar (.m o1.m) = true)
    (hv2 : s.isVar (.m i1.m) = true ∨ s.isVar (.m o2.m) = true) :
    Spec.MassBalance s [i1] [o1, o2] ∧ s.mv o1 = r * s.mv i1 ∧ s.mv o2 = (1 - r) * s.mv i1 ∧
    Spec.SamePressure s [i1, o1, o2] := by
  obtain ⟨cs, hc⟩ := solved_constraints F s _ h
  have hz := solved_zero F s _ h cs hc
  simp only [Dev.constraints, Except.ok.injEq] at hc
  subst hc
  simp only [List.mem_cons, List.not_mem_nil, or_false, forall_eq_or_imp, forall_eq] at hz
  obtain ⟨hm, -, hp, -⟩ := hz
  have hm' := hm (by
    have : (s.isVar (.m i1.m) || s.isVar (.m o1.m)) = true := by simpa using hv1
    simp [this])
  simp only [elecMass, if_pos hv1, if_pos hv2, Resid.toList, List.cons_append, List.nil_append,
    List.mem_cons, List.not_mem_nil, or_false, forall_eq_or_imp, forall_eq] at hm'
  have hp' := hp (by decide)
  simp only [elecPressure, Resid.toList, List.mem_cons, List.not_mem_nil, or_false,
    forall_eq_or_imp, forall_eq, sub_eq_zero] at hp'
  refine ⟨?_, by linear_combination -hm'.1, by linear_combination -hm'.2, ?_⟩
  · simp only [Spec.MassBalance, List.map_cons, List.map_nil, List.sum_cons, List.sum_nil, add_zero]
    linear_combination hm'.1 + hm'.2
  · exact (nodePressure_zero s i1 [] [o1, o2]).mp (by
      simp only [nodePressure, Resid.toList, List.nil_append, List.map_cons, List.map_nil,
        List.mem_cons, List.not_mem_nil, or_false, forall_eq_or_imp, forall_eq, sub_eq_zero]
      exact hp')

/-- C38 (fuel cell): if the oxygen mass flow and one of hydrogen and water are variable, mass
is conserved with the stoichiometric ratio. -/
theorem C38_fuel_cell_partial (F : PropFuncs K) (s : EqState K) (i0 i1 i2 o0 o1 : Port) (r : K)
    (energy : EqState K → K) (h : Spec.Solved F s (.fuelCell i0 i1 i2 o0 o1 r energy))
    (hv : s.isVar (.m i2.m) = true ∨ s.isVar (.m o1.m) = true) :
    Spec.MassBalance s [i1, i2] [o1] ∧ s.mv i1 = r * s.mv o1 ∧ s.mv i2 = (1 - r) * s.mv o1 ∧
    Spec.SamePressure s [o1, i1, i2] := by
  obtain ⟨cs, hc⟩ := solved_constraints F s _ h
  have hz := solved_zero F s _ h cs hc
  simp only [Dev.constraints] at hc
  split at hc
  · rename_i hv1
    simp only [Except.ok.injEq] at hc
    subst hc
    simp only [List.mem_cons, List.not_mem_nil, or_false, forall_eq_or_imp, forall_eq] at hz
    obtain ⟨hm, -, hp⟩ := hz
    have hm' := hm (by decide)
    have hv1' : s.isVar (.m i1.m) = true ∨ s.isVar (.m o1.m) = true := Or.inl hv1
    simp only [cellMass, if_pos hv1', if_pos hv, Resid.toList, List.cons_append, List.nil_append,
      List.mem_cons, List.not_mem_nil, or_false, forall_eq_or_imp, forall_eq] at hm'
    have hp' := hp (by decide)
    simp only [cellPressure, Resid.toList, List.mem_cons, List.not_mem_nil, or_false,
      forall_eq_or_imp, forall_eq, sub_eq_zero] at hp'
    refine ⟨?_, by linear_combination -hm'.1, by linear_combination -hm'.2, ?_⟩
    · simp only [Spec.MassBalance, List.map_cons, List.map_nil, List.sum_cons, List.sum_nil,
        add_zero]
      linear_combination -hm'.1 - hm'.2
    · exact (nodePressure_zero s o1 [] [i1, i2]).mp (by
        simp only [nodePressure, Resid.toList, List.nil_append, List.map_cons, List.map_nil,
          List.mem_cons, List.not_mem_nil, or_false, forall_eq_or_imp, forall_eq, sub_eq_zero]
        exact hp')
  · cases hc
end

/-- C38 is false if all mass flows of the electrolyzer are specified: no equation connects
them. -/
theorem C38_electrolyzer_unbalanced :
    let s := exState (fun _ => 1) (fun _ => 1) (fun _ => 1) (fun _ _ => 1) (fun _ => ["water"])
      (fun _ => []) (fun _ => false)
    Spec.Solved exProps s (.electrolyzer (port 0) (port 1) (port 2) (port 3) (port 4) (8/9) (fun _ => 0))
      ∧ ¬ Spec.MassBalance s [port 1] [port 3, port 4] := by
  refine ⟨⟨[0, 0, 0, 0], by decide +kernel, by simp⟩, ?_⟩
  unfold Spec.MassBalance
  decide +kernel

example : Spec.Solved exProps (exState (fun i => if i = 1 then 9 else if i = 3 then 8 else 1)
    (fun _ => 1) (fun _ => 1) (fun _ _ => 1) (fun _ => ["water"]) (fun _ => []) (fun i => i = 1))
    (.electrolyzer (port 0) (port 1) (port 2) (port 3) (port 4) (8/9) (fun _ => 0)) :=
  ⟨[0, 0, 0, 0, 0, 0], by decide +kernel, by simp⟩

example : Spec.Solved exProps (exState (fun i => if i = 1 then 8 else if i = 4 then 9 else 1)
    (fun _ => 1) (fun _ => 1) (fun _ _ => 1) (fun _ => ["water"]) (fun _ => []) (fun _ => true))
    (.fuelCell (port 0) (port 1) (port 2) (port 3) (port 4) (8/9) (fun _ => 0)) :=
  ⟨[0, 0, 0, 0, 0], by decide +kernel, by simp⟩

end Tespy
