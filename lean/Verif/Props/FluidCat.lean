import Verif.Model.FluidCat
import Mathlib.Algebra.Order.Field.Rat
import Mathlib.Algebra.Order.Field.Basic
import Mathlib.Tactic.Ring
import Mathlib.Tactic.FieldSimp
import Mathlib.Tactic.NormNum
import Mathlib.Tactic.Linarith
import Mathlib.Data.List.Nodup

/-!
C113: the kind of fluid of a stream is determined by the fluids it contains.
-/
namespace Tespy
variable {K : Type} [Field K] [LinearOrder K]

/-- the stream contains a fluid: a mass fraction above 0.000001 -/
def Spec.Contains (fd : FluidData K) (f : String) : Prop := ∃ e, (f, e) ∈ fd ∧ (1 : K) / 1000000 < e.y

/-- CoolProp knows the fluid, and one of its names, without blanks, is in the list of fuels -/
def Spec.FuelName (aliases : String → Option (List String)) (f : String) : Prop :=
  ∃ as, aliases f = some as ∧ ∃ a ∈ as,
    stripBlanks a ∈ ["methane", "ethane", "propane", "butane", "hydrogen", "nDodecane"]

/-- exactly one fluid -/
def Spec.Pure (fd : FluidData K) (f : String) : Prop := ∀ g, Spec.Contains fd g ↔ g = f

theorem isFuelName_true (aliases : String → Option (List String)) (f : String) :
    isFuelName aliases f = some true ↔ Spec.FuelName aliases f := by
  unfold isFuelName Spec.FuelName
  cases aliases f with
  | none => simp
  | some as => simp [combustionGases]

theorem isFuelName_none (aliases : String → Option (List String)) (f : String) :
    isFuelName aliases f = none ↔ aliases f = none := by
  unfold isFuelName
  cases aliases f <;> simp

theorem contains_filter (fd : FluidData K) (f : String) :
    Spec.Contains fd f ↔ f ∈ (fd.filter detected).map Prod.fst := by
  unfold Spec.Contains
  simp only [List.mem_map, List.mem_filter, Prod.exists]
  constructor
  · rintro ⟨e, h1, h2⟩; exact ⟨f, e, ⟨h1, by simpa [detected, ERR] using h2⟩, rfl⟩
  · rintro ⟨g, e, ⟨h1, h2⟩, rfl⟩; exact ⟨e, h1, by simpa [detected, ERR] using h2⟩

theorem mixtureCat_eq (aliases : String → Option (List String)) (fd : FluidData K) :
    (mixtureCat aliases fd = .combustionGas ↔ ∃ f, Spec.Contains fd f ∧ Spec.FuelName aliases f) ∧
    (mixtureCat aliases fd = .combustionGas ∨ mixtureCat aliases fd = .nonCombustionGas) := by
  induction fd with
  | nil => exact ⟨by simp [mixtureCat, Spec.Contains], .inr rfl⟩
  | cons e fd ih =>
    obtain ⟨f0, e0⟩ := e
    have skip : ¬ ((1 : K) / 1000000 < e0.y ∧ Spec.FuelName aliases f0) →
        ((∃ f, Spec.Contains ((f0, e0) :: fd) f ∧ Spec.FuelName aliases f) ↔
          ∃ f, Spec.Contains fd f ∧ Spec.FuelName aliases f) := by
      intro hn
      constructor
      · rintro ⟨f, ⟨e, he, hy⟩, hf⟩
        rcases List.mem_cons.1 he with h | h
        · cases h; exact absurd ⟨hy, hf⟩ hn
        · exact ⟨f, ⟨e, h, hy⟩, hf⟩
      · rintro ⟨f, ⟨e, he, hy⟩, hf⟩
        exact ⟨f, ⟨e, List.mem_cons_of_mem _ he, hy⟩, hf⟩
    unfold mixtureCat
    by_cases hy : (1 : K) / 1000000 < e0.y
    · have hy' : (ERR : K) < (f0, e0).2.y := hy
      rw [if_pos hy']
      dsimp only
      cases hb : isFuelName aliases f0 with
      | none =>
        have hn : ¬ Spec.FuelName aliases f0 := by rw [← isFuelName_true, hb]; simp
        rw [skip (fun h => hn h.2)]; exact ih
      | some b =>
        cases b with
        | false =>
          have hn : ¬ Spec.FuelName aliases f0 := by rw [← isFuelName_true, hb]; simp
          rw [skip (fun h => hn h.2)]; exact ih
        | true =>
          refine ⟨⟨fun _ => ⟨f0, ⟨e0, List.mem_cons_self, hy⟩, (isFuelName_true _ _).1 hb⟩, fun _ => rfl⟩, .inl rfl⟩
    · have hy' : ¬ (ERR : K) < (f0, e0).2.y := hy
      rw [if_neg hy', skip (fun h => hy h.1)]; exact ih

/-- The two cases of the function. -/
theorem singleFluidName_cases (fd : FluidData K) (hd : (fd.map Prod.fst).Nodup) :
    (∀ f, singleFluidName fd = some f ↔ Spec.Pure fd f) := by
  intro f
  have hnd : ((fd.filter detected).map Prod.fst).Nodup := hd.sublist (List.filter_sublist.map _)
  unfold singleFluidName numFluids
  have hc := contains_filter fd
  revert hc hnd
  generalize fd.filter detected = l
  intro hnd hc
  unfold Spec.Pure
  simp only [hc]
  match l, hnd with
  | [], _ => simp
  | [a], _ =>
    simp only [List.length_singleton, lt_irrefl, if_false, List.head?_cons, Option.map_some, Option.some.injEq,
      List.map_cons, List.map_nil, List.mem_singleton]
    constructor
    · rintro rfl g; exact Iff.rfl
    · intro h; exact (h a.1).1 rfl
  | a :: b :: l', hnd =>
    have h2 : 1 < (a :: b :: l').length := by simp
    rw [if_pos h2]
    constructor
    · intro h; cases h
    · intro h
      have ha := (h a.1).1 (by simp)
      have hb := (h b.1).1 (by simp)
      simp only [List.map_cons, List.nodup_cons, List.mem_cons, not_or] at hnd
      exact absurd (ha.trans hb.symm) hnd.1.1

/-- C113: what each kind means. A stream is a combustion gas exactly if it contains a fluid with the name of a fuel;
without one it is incompressible or of two phases if it consists of a single fluid, which CoolProp has no names for or
has names for, and else a gas which is no fuel. -/
theorem C113_kinds (aliases : String → Option (List String)) (fd : FluidData K) (hd : (fd.map Prod.fst).Nodup) :
    (categorizeFluids aliases fd = .combustionGas ↔ ∃ f, Spec.Contains fd f ∧ Spec.FuelName aliases f) ∧
    (categorizeFluids aliases fd = .incompressible ↔ ∃ f, Spec.Pure fd f ∧ aliases f = none) ∧
    (categorizeFluids aliases fd = .twoPhase ↔
      ∃ f, Spec.Pure fd f ∧ aliases f ≠ none ∧ ¬ Spec.FuelName aliases f) ∧
    (categorizeFluids aliases fd = .nonCombustionGas ↔
      (¬ ∃ f, Spec.Pure fd f) ∧ ¬ ∃ f, Spec.Contains fd f ∧ Spec.FuelName aliases f) := by
  have hs := singleFluidName_cases fd hd
  have hm := mixtureCat_eq aliases fd
  unfold categorizeFluids
  cases h : singleFluidName fd with
  | none =>
    have hn : ¬ ∃ f, Spec.Pure fd f := by
      rintro ⟨f, hf⟩
      rw [(hs f).2 hf] at h; cases h
    refine ⟨hm.1, ?_, ?_, ?_⟩
    · constructor
      · intro hc; rcases hm.2 with h' | h' <;> rw [h'] at hc <;> cases hc
      · rintro ⟨f, hf, _⟩; exact absurd ⟨f, hf⟩ hn
    · constructor
      · intro hc; rcases hm.2 with h' | h' <;> rw [h'] at hc <;> cases hc
      · rintro ⟨f, hf, _⟩; exact absurd ⟨f, hf⟩ hn
    · constructor
      · intro hc
        refine ⟨hn, fun he => ?_⟩
        have := hm.1.2 he
        dsimp only at hc
        rw [this] at hc; cases hc
      · rintro ⟨_, hf⟩
        rcases hm.2 with h' | h'
        · exact absurd (hm.1.1 h') hf
        · exact h'
  | some f =>
    have hp : Spec.Pure fd f := (hs f).1 h
    have huniq : ∀ g, Spec.Pure fd g → g = f := fun g hg => (hp g).1 ((hg g).2 rfl)
    have hfuel : (∃ g, Spec.Contains fd g ∧ Spec.FuelName aliases g) ↔ Spec.FuelName aliases f :=
      ⟨fun ⟨g, hg, hf⟩ => (hp g).1 hg ▸ hf, fun hf => ⟨f, (hp f).2 rfl, hf⟩⟩
    have e1 : (∃ g, Spec.Pure fd g ∧ aliases g = none) ↔ aliases f = none :=
      ⟨fun ⟨g, hg, h'⟩ => huniq g hg ▸ h', fun h' => ⟨f, hp, h'⟩⟩
    have e2 : (∃ g, Spec.Pure fd g ∧ aliases g ≠ none ∧ ¬ Spec.FuelName aliases g) ↔
        aliases f ≠ none ∧ ¬ Spec.FuelName aliases f :=
      ⟨fun ⟨g, hg, h'⟩ => huniq g hg ▸ h', fun h' => ⟨f, hp, h'⟩⟩
    have e3 : (¬ ∃ g, Spec.Pure fd g) ↔ False := ⟨fun h' => h' ⟨f, hp⟩, False.elim⟩
    rw [hfuel, e1, e2, e3, ← isFuelName_true, ne_eq, ← isFuelName_none]
    dsimp only
    generalize isFuelName aliases f = r
    cases r with
    | none => simp
    | some b => cases b <;> simp

/-- C113: the kind does not depend on the order of the fluids, nor on the amounts of fluids below the threshold. -/
theorem C113_order (aliases : String → Option (List String)) (fd fd' : FluidData K) (hd : (fd.map Prod.fst).Nodup)
    (hd' : (fd'.map Prod.fst).Nodup) (h : ∀ f, Spec.Contains fd f ↔ Spec.Contains fd' f) :
    categorizeFluids aliases fd = categorizeFluids aliases fd' := by
  have hp : ∀ f, Spec.Pure fd f ↔ Spec.Pure fd' f := by
    intro f; unfold Spec.Pure; simp only [h]
  obtain ⟨a1, a2, a3, a4⟩ := C113_kinds aliases fd hd
  obtain ⟨b1, b2, b3, b4⟩ := C113_kinds aliases fd' hd'
  simp only [h, hp] at a1 a2 a3 a4
  cases hc : categorizeFluids aliases fd' with
  | combustionGas => exact a1.2 (b1.1 hc)
  | incompressible => exact a2.2 (b2.1 hc)
  | twoPhase => exact a3.2 (b3.1 hc)
  | nonCombustionGas => exact a4.2 (b4.1 hc)

/-- A wrapper for the examples. -/
def catWrapper : Wrapper ℚ := ⟨1, 1, 1, fun _ _ => 0, fun _ _ => 0, fun _ _ => 1, fun _ _ => 1, fun _ _ => 0, fun _ _ => 0,
  fun _ _ => 1, fun T => T, fun p => p, fun _ => true⟩
/-- Some names of fluids, two heat transfer fluids without names. -/
def catAliases (f : String) : Option (List String) :=
  if f = "CH4" then some ["Methane", "methane", "CH4"]
  else if f = "CO" then some ["CarbonMonoxide", "CO"]
  else if f = "N2" then some ["Nitrogen", "N2"]
  else if f = "H2O" then some ["Water", "H2O"]
  else none
/-- A stream with equal shares. -/
def catStream (fs : List String) (y : ℚ) : FluidData ℚ := fs.map (fun f => (f, ⟨y, catWrapper⟩))

-- non-vacuity: the four kinds
example : categorizeFluids catAliases (catStream ["N2", "CH4"] (1 / 2)) = .combustionGas ∧
    categorizeFluids catAliases (catStream ["H2O"] 1) = .twoPhase ∧
    categorizeFluids catAliases (catStream ["TVP1"] 1) = .incompressible ∧
    categorizeFluids catAliases (catStream ["N2", "H2O"] (1 / 2)) = .nonCombustionGas ∧
    ((catStream ["N2", "CH4"] (1 / 2)).map Prod.fst).Nodup := by
  refine ⟨by decide +kernel, by decide +kernel, by decide +kernel, by decide +kernel, by decide +kernel⟩

/-- C113 is false for the meaning of the words: carbon monoxide, which can be burned, is no combustion gas, neither pure nor with
nitrogen; two heat transfer fluids together are a gas; nitrogen with two millionths of methane is a combustion gas. -/
theorem C113_words_false :
    categorizeFluids catAliases (catStream ["CO"] 1) = .twoPhase ∧
    categorizeFluids catAliases (catStream ["CO", "N2"] (1 / 2)) = .nonCombustionGas ∧
    categorizeFluids catAliases (catStream ["TVP1", "Cyclo"] (1 / 2)) = .nonCombustionGas ∧
    categorizeFluids catAliases (catStream ["N2"] (999998 / 1000000) ++ catStream ["CH4"] (2 / 1000000)) =
      .combustionGas := by
  refine ⟨by decide +kernel, by decide +kernel, by decide +kernel, by decide +kernel⟩

/-! ### saturation -/

/-- C79: saturation temperature and pressure are those of the only fluid of the stream; with several fluids, or none,
they raise `ValueError`. -/
theorem C79_saturation (fd : FluidData K) (hd : (fd.map Prod.fst).Nodup) (v : K) :
    (∀ f e, (f, e) ∈ fd → Spec.Pure fd f → tSatP v fd = .ok (e.w.tSat v) ∧ pSatT v fd = .ok (e.w.pSat v)) ∧
    ((¬ ∃ f, Spec.Pure fd f) → tSatP v fd = .error .valueError ∧ pSatT v fd = .error .valueError ∧
      dTSatDp v fd = .error .valueError) := by
  have hs := singleFluidName_cases fd hd
  constructor
  · intro f e he hp
    have h := (hs f).2 hp
    have hc := (contains_filter fd f).1 ((hp f).2 rfl)
    unfold singleFluidName numFluids at h
    unfold tSatP pSatT numFluids pureFluid
    obtain ⟨⟨g, e'⟩, hm, hg⟩ := List.mem_map.1 hc
    cases hg
    have hee : e' = e := by
      have hmf := (List.mem_filter.1 hm).1
      have := List.inj_on_of_nodup_map hd hmf he rfl
      exact (Prod.mk.inj this).2
    subst hee
    revert h hm
    generalize fd.filter detected = l
    intro hm h
    match l with
    | [] => cases hm
    | [a] =>
      rw [← List.mem_singleton.1 hm]
      simp
    | a :: b :: l' =>
      rw [if_pos (by simp)] at h; cases h
  · intro hn
    have h1 : numFluids fd ≠ 1 := by
      intro h1
      obtain ⟨a, ha⟩ := List.length_eq_one_iff.1 h1
      apply hn
      refine ⟨a.1, (hs a.1).1 ?_⟩
      unfold singleFluidName
      rw [h1, ha]; simp
    refine ⟨?_, ?_, ?_⟩
    · simp [tSatP, h1]
    · simp [pSatT, h1]
    · simp [dTSatDp, tSatP, h1]

/-- C79: the numerical derivative of the saturation temperature of a pure fluid is exact for polynomials of second degree; a
third power with coefficient `a3` makes an error of `a3 / 10000`. -/
theorem C79_saturation_error [IsStrictOrderedRing K] (fd : FluidData K) (hd : (fd.map Prod.fst).Nodup) (f : String)
    (e : FluidEntry K) (he : (f, e) ∈ fd) (hp : Spec.Pure fd f) (p a0 a1 a2 a3 : K)
    (hc : ∀ t, e.w.tSat (p + t) = a0 + a1 * t + a2 * t ^ 2 + a3 * t ^ 3) :
    dTSatDp p fd = .ok (a1 + a3 / 10000) := by
  have h1 := ((C79_saturation fd hd (p + 1 / 100)).1 f e he hp).1
  have h2 := ((C79_saturation fd hd (p - 1 / 100)).1 f e he hp).1
  have hc2 := hc (-(1 / 100))
  rw [← sub_eq_add_neg] at hc2
  unfold dTSatDp
  rw [h1, h2, hc, hc2]
  show Except.ok _ = Except.ok _
  congr 1
  field_simp
  ring

-- non-vacuity
example : Spec.Pure (catStream ["H2O"] 1) "H2O" := by
  intro g
  rw [contains_filter]
  have : (catStream ["H2O"] 1).filter detected = catStream ["H2O"] 1 := by
    simp only [catStream, List.map_cons, List.map_nil, List.filter_cons, List.filter_nil]
    rw [if_pos (by simp [detected, ERR]; norm_num)]
  rw [this]
  simp [catStream]

end Tespy
