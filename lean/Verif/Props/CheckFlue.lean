import Verif.Props.CheckMore
/-
C72: what the check of a combustion does with the composition of the flue gas.
-/
namespace Tespy
variable {K : Type} [Field K] [LinearOrder K]

namespace Spec

/-- Correction of a mass fraction `x` of the flue gas to `y`; `mix` is the fraction of the fluid in the mixture of all inlets.
Oxygen between 0.1 % and 25 %, carbon dioxide and water between 0.1 % and 10 % are kept, otherwise replaced by fixed values;
no fuel is left; all other fluids may differ by 3 percentage points from the mixture of the inlets. -/
structure FlueFraction (F : CombFluids K) (f : String) (x mix y : K) : Prop where
  o2 : f = F.o2 → (1 / 1000 ≤ x → x ≤ 1 / 4 → y = x) ∧ (1 / 4 < x → y = 1 / 5) ∧ (x < 1 / 1000 → y = 1 / 20)
  product : f ≠ F.o2 → f = F.co2 ∨ f = F.h2o →
    (1 / 1000 ≤ x → x ≤ 1 / 10 → y = x) ∧ (1 / 10 < x → y = 75 / 1000) ∧ (x < 1 / 1000 → y = 1 / 50)
  fuel : f ≠ F.o2 → f ≠ F.co2 → f ≠ F.h2o → f ∈ F.fuels → 0 ≤ x → y = 0
  other : f ≠ F.o2 → f ≠ F.co2 → f ≠ F.h2o → f ∉ F.fuels →
    (|x - mix| ≤ 3 / 100 → y = x) ∧ (3 / 100 < |x - mix| → y = mix)

/-- Mass fraction of `f` in the mixture of all inlets. -/
def inletFraction (inl : List (ChkConn K)) (s : ChkState K) (f : String) : K :=
  (inl.map (fun i => s.frac i.fid f * s.get i .m)).sum / (inl.map (fun i => s.get i .m)).sum

end Spec

theorem checkMass_sum (E : ChkEnv K) (inl : List (ChkConn K)) (s : ChkState K) (h : ∀ i ∈ inl, 0 ≤ s.get i .m) :
    (checkMass E inl s).2 = (inl.map (fun i => s.get i .m)).sum := by
  induction inl generalizing s with
  | nil => rfl
  | cons i inl ih =>
    simp only [checkMass, List.map_cons, List.sum_cons]
    rw [if_neg (fun h' => not_lt.mpr (h i (by simp)) h'.1), ih s (fun j hj => h j (by simp [hj]))]

theorem combFrac_spec [IsStrictOrderedRing K] (F : CombFluids K) (inl : List (ChkConn K)) (s : ChkState K) (f : String)
    (x y : K) (h : combFrac F inl (inl.map (fun i => s.get i .m)).sum s f x = some y) :
    Spec.FlueFraction F f x (Spec.inletFraction inl s f) y := by
  simp only [combFrac] at h
  have kw : ∀ hi high lo low : K, lo ≤ hi → lo ≤ high → (lo ≤ x → x ≤ hi → keepWithin x hi high lo low = x) ∧
      (hi < x → keepWithin x hi high lo low = high) ∧ (x < lo → keepWithin x hi high lo low = low) := by
    intro hi high lo low h1 h2
    refine ⟨fun a b => by
      simp only [keepWithin]
      rw [if_neg (not_lt.mpr b), if_neg (not_lt.mpr a)], fun a => ?_, fun a => ?_⟩
    · simp only [keepWithin]
      rw [if_pos a, if_neg (not_lt.mpr h2)]
    · simp only [keepWithin]
      rw [if_neg (not_lt.mpr (le_of_lt (lt_of_lt_of_le a h1))), if_pos a]
  by_cases c1 : f = F.o2
  · rw [if_pos c1] at h
    cases h
    exact ⟨fun _ => kw _ _ _ _ (by norm_num) (by norm_num), fun h => absurd c1 h, fun h => absurd c1 h, fun h => absurd c1 h⟩
  rw [if_neg c1] at h
  by_cases c2 : f = F.co2
  · rw [if_pos c2] at h
    cases h
    exact ⟨fun h => absurd h c1, fun _ _ => kw _ _ _ _ (by norm_num) (by norm_num), fun _ h => absurd c2 h, fun _ h => absurd c2 h⟩
  rw [if_neg c2] at h
  by_cases c3 : f = F.h2o
  · rw [if_pos c3] at h
    cases h
    exact ⟨fun h => absurd h c1, fun _ _ => kw _ _ _ _ (by norm_num) (by norm_num), fun _ _ h => absurd c3 h,
      fun _ _ h => absurd c3 h⟩
  rw [if_neg c3] at h
  by_cases c4 : f ∈ F.fuels
  · rw [if_pos c4] at h
    refine ⟨fun h => absurd h c1, fun _ h => absurd h (by simp [c2, c3]), fun _ _ _ _ hx => ?_, fun _ _ _ h => absurd c4 h⟩
    simp only [Option.some.injEq] at h
    rw [← h]
    split
    · rfl
    · next hn => exact le_antisymm (not_lt.mp hn) hx
  rw [if_neg c4] at h
  split at h
  · cases h
  simp only [Option.some.injEq] at h
  refine ⟨fun h => absurd h c1, fun _ h => absurd h (by simp [c2, c3]), fun _ _ _ h => absurd h c4, fun _ _ _ _ => ?_⟩
  unfold Spec.inletFraction
  constructor
  · intro hx
    rw [if_neg (not_lt.mpr hx)] at h
    exact h.symm
  · intro hx
    rw [if_pos hx] at h
    exact h.symm

/-- the loop over the fluids treats every fluid once, at its old value -/
theorem forEach_flue [IsStrictOrderedRing K] (F : CombFluids K) (inl : List (ChkConn K)) (o : ChkConn K) (s0 : ChkState K)
    (hsep : ∀ i ∈ inl, i.fid ≠ o.fid) (fs : List String) (hnd : fs.Nodup) (s : ChkState K) (hv : s.val = s0.val)
    (hfr : ∀ i, i ≠ o.fid → s.frac i = s0.frac i) (hold : ∀ f ∈ fs, s.frac o.fid f = s0.frac o.fid f)
    (hok : (ChkStep.forEach (combFluid F inl (inl.map (fun i => s0.get i .m)).sum o) fs s).2 = none) :
    (∀ f ∈ fs, Spec.FlueFraction F f (s0.frac o.fid f) (Spec.inletFraction inl s0 f)
      ((ChkStep.forEach (combFluid F inl (inl.map (fun i => s0.get i .m)).sum o) fs s).1.frac o.fid f)) ∧
    ∀ f, f ∉ fs → (ChkStep.forEach (combFluid F inl (inl.map (fun i => s0.get i .m)).sum o) fs s).1.frac o.fid f =
      s.frac o.fid f := by
  induction fs generalizing s with
  | nil => exact ⟨fun f hf => absurd hf (by simp), fun f _ => rfl⟩
  | cons f fs ih =>
    obtain ⟨a1, a2, a3⟩ := andThen_ok hok
    obtain ⟨hn1, hn2⟩ := List.nodup_cons.mp hnd
    have e : ChkStep.forEach (combFluid F inl (inl.map (fun i => s0.get i .m)).sum o) (f :: fs) s =
      ((combFluid F inl (inl.map (fun i => s0.get i .m)).sum o f).andThen
        (ChkStep.forEach (combFluid F inl (inl.map (fun i => s0.get i .m)).sum o) fs)) s := rfl
    rw [e, a3]
    have hmap : ∀ t : ChkState K, t.val = s0.val → inl.map (fun i => t.get i .m) = inl.map (fun i => s0.get i .m) := by
      intro t ht
      simp only [ChkState.get, ht]
    cases hy : combFrac F inl (inl.map (fun i => s0.get i .m)).sum s f (s.frac o.fid f) with
    | none => simp only [combFluid, hy] at a1; cases a1
    | some y =>
      have hc : combFluid F inl (inl.map (fun i => s0.get i .m)).sum o f s = (s.putFrac o.fid f y, none) := by
        simp only [combFluid, hy]
      rw [hc] at a2 ⊢
      simp only at a2 ⊢
      obtain ⟨g1, g2⟩ := ih hn2 (s.putFrac o.fid f y) hv
        (fun i hi => by funext g; simp only [ChkState.putFrac]; rw [if_neg (fun h => hi h.1)]; rw [hfr i hi])
        (fun g hg => by
          simp only [ChkState.putFrac]
          have hgf : g ≠ f := fun h => hn1 (h ▸ hg)
          simp only [hgf, and_false, if_false]
          exact hold g (by simp [hg])) a2
      refine ⟨fun g hg => ?_, fun g hg => ?_⟩
      · rcases List.mem_cons.mp hg with rfl | hg
        · rw [g2 g hn1]
          have hy' : (s.putFrac o.fid g y).frac o.fid g = y := by simp [ChkState.putFrac]
          rw [hy']
          rw [← hmap s hv] at hy
          have := combFrac_spec F inl s g _ y hy
          rw [hold g (by simp)] at this
          have hm : Spec.inletFraction inl s g = Spec.inletFraction inl s0 g := by
            unfold Spec.inletFraction
            rw [hmap s hv]
            congr 2
            apply List.map_congr_left
            intro i hi
            rw [hfr _ (hsep i hi)]
            simp only [ChkState.get, hv]
          rwa [hm] at this
        · exact g1 g hg
      · rw [g2 g (fun h => hg (by simp [h]))]
        simp only [ChkState.putFrac]
        rw [if_neg (fun h => hg (by simp [h.2]))]

/-- C72: the check of a combustion corrects every mass fraction of the flue gas as specified in `Spec.FlueFraction` and divides
the corrected fractions by their sum. Assumptions: no negative mass flow at an inlet, the flue gas has a composition of its
own, all its fluids are variable, and the check ends without exception. -/
theorem C72_composition_partial [IsStrictOrderedRing K] (E : ChkEnv K) (F : CombFluids K) (inl : List (ChkConn K))
    (o : ChkConn K) (s : ChkState K) (hpos : ∀ i ∈ inl, 0 ≤ s.get i .m) (hsep : ∀ i ∈ inl, i.fid ≠ o.fid)
    (hvar : E.fluids o.fid = E.fvar o.fid) (hne : E.fvar o.fid ≠ []) (hnd : (E.fvar o.fid).Nodup)
    (hok : (combustionCheck E F inl o s).2 = none) :
    ∃ y : String → K,
      (∀ f ∈ E.fvar o.fid, Spec.FlueFraction F f (s.frac o.fid f) (Spec.inletFraction inl s f) (y f)) ∧
      ((E.fvar o.fid).map y).sum ≠ 0 ∧
      ∀ f ∈ E.fvar o.fid, (combustionCheck E F inl o s).1.frac o.fid f = y f / ((E.fvar o.fid).map y).sum := by
  simp only [combustionCheck] at hok ⊢
  rw [checkMass_id E inl s hpos, checkMass_sum E inl s hpos] at hok ⊢
  obtain ⟨a1, a2, a3⟩ := andThen_ok hok
  obtain ⟨b1, b2, b3⟩ := andThen_ok a2
  obtain ⟨g, -⟩ := forEach_flue F inl o s hsep (E.fvar o.fid) hnd s rfl (fun _ _ => rfl) (fun _ _ => rfl) a1
  have hadj : ∀ s', ((if o.good = true then ChkStep.skip else
      adjust E o .h (fun s => decide (s.get o .h < 750000)) (fun _ => 1000000)) s').2 = none := by
    intro s'
    split
    · rfl
    · exact adjust_ok ..
  have hadj' : ∀ s', ((if o.good = true then ChkStep.skip else
      adjust E o .h (fun s => decide (s.get o .h < 750000)) (fun _ => 1000000)) s').1.frac = s'.frac := by
    intro s'
    split
    · rfl
    · exact adjust_frac ..
  rw [a3, b3, andThen_of_ok (adjust_ok ..), andThen_of_ok (hadj _), fuelGuess_frac, hadj', adjust_frac]
  generalize (ChkStep.forEach (combFluid F inl (inl.map (fun i => s.get i .m)).sum o) (E.fvar o.fid) s).1 = s2 at g b1
  simp only [normaliseFluids, if_neg hne, hvar] at b1 ⊢
  split at b1
  · cases b1
  · next h0 =>
    refine ⟨s2.frac o.fid, g, h0, fun f hf => ?_⟩
    rw [if_neg h0]
    simp [hf]

/-- Air and fuel: the methane in the flue gas disappears, nitrogen is set to the fraction of the inlets. -/
example : ∃ y : String → ℚ, y "CH4" = 0 ∧ y "N2" = 15 / 28 ∧ y "O2" = 1 / 20 ∧ y "CO2" = 1 / 50 ∧
    (combustionCheck combEnv combFl [demoConn 0, demoConn 3] (demoConn 2) combState).1.frac 2 "N2" =
      y "N2" / (combEnv.fvar 2 |>.map y).sum := by
  obtain ⟨y, h1, _, h3⟩ := C72_composition_partial combEnv combFl [demoConn 0, demoConn 3] (demoConn 2) combState
    (by decide +kernel) (by decide +kernel) rfl (by decide +kernel) (by decide +kernel) (by decide +kernel)
  refine ⟨y, ?_, ?_, ?_, ?_, h3 "N2" (by decide +kernel)⟩
  · exact (h1 "CH4" (by decide +kernel)).fuel (by decide) (by decide) (by decide) (by decide) (by decide +kernel)
  · rw [((h1 "N2" (by decide +kernel)).other (by decide) (by decide) (by decide) (by decide)).2 (by decide +kernel)]
    decide +kernel
  · exact ((h1 "O2" (by decide +kernel)).o2 rfl).2.2 (by decide +kernel)
  · exact ((h1 "CO2" (by decide +kernel)).product (by decide) (Or.inl rfl)).2.2 (by decide +kernel)

end Tespy
