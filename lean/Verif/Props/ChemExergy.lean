import Verif.Model.ChemExergy
import Verif.Props.MixtureRules
import Mathlib.Analysis.SpecialFunctions.Log.Basic
import Mathlib.Analysis.SpecialFunctions.Exp
import Mathlib.Analysis.Complex.ExponentialBounds
/-!
C89: chemical exergy.
-/
namespace Tespy

/-! ### Specification -/
namespace Spec

/-- The row of a fluid: that of the first of its names in the table. -/
def ChemRowOf (tab : ChemTable) (aliases : List String) (r : ChemRow) : Prop :=
  ∃ pre k post, aliases = pre ++ k :: post ∧ (∀ a ∈ pre, a ∉ Dict.keys tab) ∧ Dict.get? tab k = some r

/-- The gas phase value of a fluid (kJ/mol). -/
def GasValue (tab : ChemTable) (aliases : List String) (v : ℝ) : Prop := ∃ r, ChemRowOf tab aliases r ∧ r.gas = some v

/-- The liquid phase value of a fluid (kJ/mol). -/
def LiquidValue (tab : ChemTable) (aliases : List String) (v : ℝ) : Prop := ∃ r, ChemRowOf tab aliases r ∧ r.liquid = some v

/-- Molar chemical exergy (kJ/mol) of a mixture of ideal gases with mole fractions `x`: that of the species less the
exergy lost by mixing. `R = 8.314462618 J/(mol K)`. -/
noncomputable def gasExergy (T : ℝ) (l : FluidData ℝ) (x : String × FluidEntry ℝ → ℝ) (e : String → ℝ) : ℝ :=
  (l.map fun q => x q * e q.1).sum + 8.314462618 / 1000 * T * (l.map fun q => x q * Real.log (x q)).sum

/-- Molar mass of the mixture. -/
noncomputable def mixMass (fd : FluidData ℝ) : ℝ := (fd.map fun q => moleFraction fd q * q.2.w.M).sum

/-- All water of the mixture is vapour at the given state: there is none, it is above the critical temperature or its partial
pressure does not exceed the saturation pressure. -/
def DryAt (water : Option String) (p T : ℝ) (fd : FluidData ℝ) : Prop :=
  ∀ w, water = some w → ∃ q ∈ fd, q.1 = w ∧ (q.2.w.belowTcrit T = false ∨ p * moleFraction fd q ≤ q.2.w.pSat T)

end Spec

/-! ### the table -/

theorem filterMap_none {α β : Type} {f : α → Option β} : ∀ {l : List α}, (∀ a ∈ l, f a = none) → l.filterMap f = []
  | [], _ => rfl
  | a :: l, h => by
    rw [List.filterMap_cons_none (h a (by simp))]
    exact filterMap_none fun b hb => h b (by simp [hb])

theorem chemHits_row {tab : ChemTable} {aliases : List String} {r : ChemRow} (h : Spec.ChemRowOf tab aliases r) :
    ∃ rs, chemHits tab aliases = r :: rs := by
  obtain ⟨pre, k, post, rfl, hp, hk⟩ := h
  refine ⟨post.filterMap (Dict.get? tab), ?_⟩
  unfold chemHits
  rw [List.filterMap_append, filterMap_none fun a ha => (Dict.get?_eq_none_iff _ _).2 (hp a ha), List.nil_append,
    List.filterMap_cons_some hk]

theorem firstValue_gas {tab : ChemTable} {aliases : List String} {v : ℝ} (h : Spec.GasValue tab aliases v) :
    firstValue ((chemHits tab aliases).map (·.gas)) = .ok v := by
  obtain ⟨r, hr, hv⟩ := h
  obtain ⟨rs, e⟩ := chemHits_row hr
  rw [e, List.map_cons, hv]; rfl

theorem firstValue_liquid {tab : ChemTable} {aliases : List String} {v : ℝ} (h : Spec.LiquidValue tab aliases v) :
    firstValue ((chemHits tab aliases).map (·.liquid)) = .ok v := by
  obtain ⟨r, hr, hv⟩ := h
  obtain ⟨rs, e⟩ := chemHits_row hr
  rw [e, List.map_cons, hv]; rfl

/-! ### pure fluids -/

/-- **C89** A pure fluid has the value of its reference phase, per mass, whatever the names of the fluid in the network and the
mixing rule. All rows of the fluid need a reference phase. -/
theorem C89_pure (al : String → List String) (tab : ChemTable) (water rule : Option String) (pamb Tamb : ℝ)
    (fd : FluidData ℝ) (f : String) (e : FluidEntry ℝ) (h : Spec.OnlySpecies fd f e) (hM : 0 < e.w.M) (r : ChemRow)
    (hr : Spec.ChemRowOf tab (al f) r) (hrefs : ∀ a ∈ al f, ∀ r', Dict.get? tab a = some r' → r'.ref ≠ none) (v : ℝ)
    (hv : r.ref = some .solid ∧ r.solid = some v ∨ r.ref = some .liquid ∧ r.liquid = some v ∨
      r.ref = some .gas ∧ r.gas = some v) :
    calcChemExergy al tab water rule pamb Tamb fd = .ok (1000 * v / e.w.M) := by
  have hf := filter_only h
  have hn : numFluids fd = 1 := by unfold numFluids; rw [hf]; rfl
  unfold calcChemExergy
  rw [if_pos hn, hf]
  simp only [List.head?_cons]
  unfold chemPure
  obtain ⟨rs, hh⟩ := chemHits_row hr
  have hall : ∀ r' ∈ chemHits tab (al f), r'.ref ≠ none := by
    intro r' hr'
    obtain ⟨a, ha, hg⟩ := List.mem_filterMap.1 hr'
    exact hrefs a ha r' hg
  have hok : ∀ l : List ChemRow, (∀ r' ∈ l, r'.ref ≠ none) → ∃ vs, refValues l = .ok vs := by
    intro l
    induction l with
    | nil => intro _; exact ⟨[], rfl⟩
    | cons a l ih =>
      intro hl
      obtain ⟨vs, hvs⟩ := ih fun r' hr' => hl r' (by simp [hr'])
      have ha := hl a (by simp)
      unfold refValues ChemRow.refValue
      rw [hvs]
      rcases hra : a.ref with _ | ph
      · exact absurd hra ha
      · cases ph <;> exact ⟨_, rfl⟩
  rw [hh] at hall ⊢
  obtain ⟨vs, hvs⟩ := hok rs fun r' hr' => hall r' (by simp [hr'])
  have h1 : refValues (r :: rs) = .ok (some v :: vs) := by
    unfold refValues ChemRow.refValue
    rw [hvs]
    rcases hv with ⟨a, b⟩ | ⟨a, b⟩ | ⟨a, b⟩ <;> rw [a] <;> simp only [b]
  rw [h1]
  simp only [firstValue]
  unfold fdiv
  rw [if_neg hM.ne']
  simp only [Except.ok.injEq]
  ring

/-! ### mixtures -/

/-- the loop for values of all species -/
theorem chemLoop_eq {al : String → List String} {tab : ChemTable} {fd : FluidData ℝ} {T liq : ℝ} {e : String → ℝ} {eL : ℝ}
    {w : String} (hn : (Dict.keys fd).Nodup) (x : String × FluidEntry ℝ → ℝ) (hl : 0 ≤ liq) :
    ∀ l : FluidData ℝ, (∀ q ∈ l, q ∈ fd) → (∀ q ∈ l, 0 ≤ x q) → (∀ q ∈ l, x q ≠ 0 → Spec.GasValue tab (al q.1) (e q.1)) →
      (0 < liq → ∀ q ∈ l, "water" ∈ al q.1 ↔ q.1 = w) → (0 < liq → Spec.LiquidValue tab (al w) eL) →
      chemLoop al tab fd T liq (l.map fun q => (q.1, x q)) =
        .ok ((l.map fun q => if q.1 = w ∧ x q ≠ 0 then liq * eL else 0).sum,
          (l.map fun q => x q * e q.1).sum + gasConst * T * (l.map fun q => x q * Real.log (x q)).sum) := by
  intro l
  induction l with
  | nil => intros; simp [chemLoop]
  | cons q l ih =>
    intro h1 h2 h3 h4 h5
    have ih' := ih (fun a ha => h1 a (by simp [ha])) (fun a ha => h2 a (by simp [ha])) (fun a ha => h3 a (by simp [ha]))
      (fun hp a ha => h4 hp a (by simp [ha])) h5
    simp only [List.map_cons, chemLoop]
    by_cases hx : x q = 0
    · rw [if_pos hx, ih']
      simp [hx]
    · rw [if_neg hx]
      have hg : Dict.getItem fd q.1 = .ok q.2 := by
        unfold Dict.getItem; rw [Dict.get?_of_mem hn (h1 q (by simp))]
      rw [hg]
      simp only
      have hc : chemCond tab (al q.1) liq = .ok (if q.1 = w ∧ x q ≠ 0 then liq * eL else 0) := by
        unfold chemCond
        by_cases hp : 0 < liq
        · by_cases hw : q.1 = w
          · rw [if_pos ⟨hp, (h4 hp q (by simp)).2 hw⟩, hw, firstValue_liquid (h5 hp), if_pos ⟨rfl, hx⟩]
          · rw [if_neg fun h => hw ((h4 hp q (by simp)).1 h.2), if_neg fun h => hw h.1]
        · have : liq = 0 := le_antisymm (not_lt.1 hp) hl
          rw [if_neg fun h => hp h.1, this]; simp
      rw [hc]
      simp only
      rw [firstValue_gas (h3 q (by simp) hx)]
      simp only
      rw [if_neg (not_lt.2 (h2 q (by simp))), ih']
      simp only [List.sum_cons, Except.ok.injEq, Prod.mk.injEq, true_and]
      ring

theorem moleFraction_nonneg {fd : FluidData ℝ} (h : Spec.Composition fd) {q : String × FluidEntry ℝ} (hq : q ∈ fd) :
    0 ≤ Spec.moleFraction fd q :=
  div_nonneg (div_nonneg (h.nonneg q hq) (h.molar q hq).le) (molar_sum_pos h).le

theorem moleFraction_sum {fd : FluidData ℝ} (h : Spec.Composition fd) : (fd.map (Spec.moleFraction fd)).sum = 1 := by
  have := sum_div fd (fun e => e.2.y / e.2.w.M) (fd.map fun e => e.2.y / e.2.w.M).sum
  rw [div_self (molar_sum_pos h).ne'] at this
  exact this

theorem molarFractions_spec {fd : FluidData ℝ} (h : Spec.Composition fd) :
    molarFractions fd = .ok (fd.map fun q => (q.1, Spec.moleFraction fd q)) := molarFractions_eq h

theorem mixMass_eq {fd : FluidData ℝ} (h : Spec.Composition fd) :
    Spec.mixMass fd = 1 / (fd.map fun e => e.2.y / e.2.w.M).sum := by
  unfold Spec.mixMass
  have : (fd.map fun q => Spec.moleFraction fd q * q.2.w.M) =
      fd.map fun e => e.2.y / (fd.map fun e => e.2.y / e.2.w.M).sum := by
    refine List.map_congr_left fun e he => ?_
    have := (h.molar e he).ne'
    unfold Spec.moleFraction
    have hS := (molar_sum_pos h).ne'
    field_simp
  rw [this, sum_div, h.total]

theorem mixMass_pos {fd : FluidData ℝ} (h : Spec.Composition fd) : 0 < Spec.mixMass fd := by
  rw [mixMass_eq h]; exact one_div_pos.2 (molar_sum_pos h)

theorem molarMass_mixMass {fd : FluidData ℝ} (h : Spec.Composition fd) :
    molarMass fd (fd.map fun q => (q.1, Spec.moleFraction fd q)) = .ok (Spec.mixMass fd) :=
  molarMass_map fd _ fd fun e he => Dict.get?_of_mem h.nodup he

theorem chemMix_eq {al : String → List String} {tab : ChemTable} {water : Option String} {p T : ℝ} {fd : FluidData ℝ}
    (h : Spec.Composition fd) {gas : Dict String ℝ} {liq c d : ℝ}
    (hs : chemSplit water p T fd (fd.map fun q => (q.1, Spec.moleFraction fd q)) = .ok (gas, liq))
    (hl : chemLoop al tab fd T liq gas = .ok (c, d)) :
    chemMix al tab water p T fd = .ok (1000 * (c + (1 - liq) * d) / Spec.mixMass fd) := by
  unfold chemMix
  rw [molarFractions_spec h]
  simp only [hs, hl, molarMass_mixMass h]
  unfold fdiv
  rw [if_neg (mixMass_pos h).ne']
  simp only [Except.ok.injEq]
  ring

theorem calc_mix {al : String → List String} {tab : ChemTable} {water : Option String} {p T : ℝ} {fd : FluidData ℝ}
    (h2 : Spec.AtLeastTwo fd) :
    calcChemExergy al tab water (some "ideal-cond") p T fd = chemMix al tab water p T fd := by
  unfold calcChemExergy
  rw [if_neg (numFluids_ne_one h2), if_pos rfl]

theorem chemSplit_dry {water : Option String} {p T : ℝ} {fd : FluidData ℝ} (h : Spec.Composition fd)
    (hd : Spec.DryAt water p T fd) :
    chemSplit water p T fd (fd.map fun q => (q.1, Spec.moleFraction fd q)) =
      .ok (fd.map fun q => (q.1, Spec.moleFraction fd q), 0) := by
  unfold chemSplit
  rcases water with _ | w
  · rfl
  · obtain ⟨q, hq, rfl, hc⟩ := hd w rfl
    have hw := Dict.get?_of_mem h.nodup hq
    have hx := get?_map_val fd (Spec.moleFraction fd) q.1 q.2 hw
    simp only
    rw [C43_dry fd p T q.1 q.2 hw _ _ (molarFractions_spec h) hx hc]

/-- **C89** Chemical exergy of a mixture whose water is vapour at ambient state: that of an ideal gas mixture, per mass. -/
theorem C89_dry (al : String → List String) (tab : ChemTable) (water : Option String) (pamb Tamb : ℝ) (fd : FluidData ℝ)
    (h : Spec.Composition fd) (h2 : Spec.AtLeastTwo fd) (hd : Spec.DryAt water pamb Tamb fd) (e : String → ℝ)
    (he : ∀ q ∈ fd, q.2.y ≠ 0 → Spec.GasValue tab (al q.1) (e q.1)) :
    calcChemExergy al tab water (some "ideal-cond") pamb Tamb fd =
      .ok (1000 * Spec.gasExergy Tamb fd (Spec.moleFraction fd) e / Spec.mixMass fd) := by
  rw [calc_mix h2]
  have hl := chemLoop_eq (al := al) (tab := tab) (T := Tamb) (liq := 0) (e := e) (eL := 0) (w := "") h.nodup
    (Spec.moleFraction fd) (le_refl _) fd (fun _ hq => hq) (fun q hq => moleFraction_nonneg h hq)
    (fun q hq hx => he q hq fun hy => hx (by unfold Spec.moleFraction; rw [hy]; simp))
    (fun hp => absurd hp (lt_irrefl _)) (fun hp => absurd hp (lt_irrefl _))
  rw [chemMix_eq h (chemSplit_dry h hd) hl]
  simp only [Except.ok.injEq]
  unfold Spec.gasExergy gasConst
  simp

/-- **C89** Chemical exergy of a mixture whose water condenses at ambient state: `n` moles of liquid water per mole of
the mixture, and a saturated gas phase with mole fractions `x`. -/
theorem C89_condensing (al : String → List String) (tab : ChemTable) (pamb Tamb : ℝ) (fd : FluidData ℝ)
    (h : Spec.Composition fd) (h2 : Spec.AtLeastTwo fd) (w : String × FluidEntry ℝ) (hw : w ∈ fd) (hp : 0 < pamb)
    (hs : 0 < w.2.w.pSat Tamb) (hc : w.2.w.belowTcrit Tamb = true)
    (hcond : w.2.w.pSat Tamb < pamb * Spec.moleFraction fd w) (hwater : ∀ q ∈ fd, "water" ∈ al q.1 ↔ q.1 = w.1)
    (e : String → ℝ) (he : ∀ q ∈ fd, q.2.y ≠ 0 → Spec.GasValue tab (al q.1) (e q.1)) (eL : ℝ)
    (heL : Spec.LiquidValue tab (al w.1) eL) :
    ∃ (n : ℝ) (x : String × FluidEntry ℝ → ℝ), 0 < n ∧ n < 1 ∧ (∀ q ∈ fd, 0 ≤ x q) ∧ (fd.map x).sum = 1 ∧
      pamb * x w = w.2.w.pSat Tamb ∧ n + (1 - n) * x w = Spec.moleFraction fd w ∧
      (∀ q ∈ fd, q.1 ≠ w.1 → (1 - n) * x q = Spec.moleFraction fd q) ∧
      calcChemExergy al tab (some w.1) (some "ideal-cond") pamb Tamb fd =
        .ok (1000 * (n * eL + (1 - n) * Spec.gasExergy Tamb fd x e) / Spec.mixMass fd) := by
  have hgw := Dict.get?_of_mem h.nodup hw
  have hxw := get?_map_val fd (Spec.moleFraction fd) w.1 w.2 hgw
  have hy1 : w.2.y < 1 := by
    obtain ⟨a, ha, b, hb, hne, ya, yb⟩ := h2
    obtain ⟨c, hcm, hcw, yc⟩ : ∃ c ∈ fd, c.1 ≠ w.1 ∧ 0 < c.2.y := by
      by_cases hh : a.1 = w.1
      · exact ⟨b, hb, fun hb' => hne (hh.trans hb'.symm), by linarith [show (0 : ℝ) < 1 / 1000000 by norm_num]⟩
      · exact ⟨a, ha, hh, by linarith [show (0 : ℝ) < 1 / 1000000 by norm_num]⟩
    have key : ∀ l : FluidData ℝ, (∀ q ∈ l, 0 ≤ q.2.y) → w ∈ l → c ∈ l → w.2.y + c.2.y ≤ (l.map fun q => q.2.y).sum := by
      intro l
      induction l with
      | nil => intro _ hm; simp at hm
      | cons q l ih =>
        intro hnn hm1 hm2
        have hnn' : ∀ q ∈ l, 0 ≤ q.2.y := fun a ha => hnn a (by simp [ha])
        have single : ∀ a ∈ l, a.2.y ≤ (l.map fun q => q.2.y).sum := fun a ha =>
          List.single_le_sum (fun z hz => by obtain ⟨b, hb, rfl⟩ := List.mem_map.1 hz; exact hnn' b hb) _
            (List.mem_map.2 ⟨a, ha, rfl⟩)
        simp only [List.map_cons, List.sum_cons]
        rcases List.mem_cons.1 hm1 with e1 | m1
        · rcases List.mem_cons.1 hm2 with e2 | m2
          · exact absurd (by rw [e2, e1]) hcw
          · rw [e1]; have := single c m2; linarith
        · rcases List.mem_cons.1 hm2 with e2 | m2
          · rw [e2]; have := single w m1; linarith
          · have := ih hnn' m1 m2
            have := hnn q (by simp)
            linarith
    have := key fd h.nonneg hw hcm
    rw [h.total] at this
    linarith
  obtain ⟨c, c1, c2, c3, -, -, c6, -, ⟨xg, g1, g2⟩, -, -⟩ :=
    C43_condensation fd h pamb Tamb w.1 w.2 hgw hy1 hp hs hc _ _ (molarFractions_spec h) hxw hcond
  have hcform : c.molarGas = Dict.set ((fd.map fun q => (q.1, Spec.moleFraction fd q)).map
      fun q => (q.1, q.2 / (1 - c.molarLiquid))) w.1 ((Spec.moleFraction fd w - c.molarLiquid) / (1 - c.molarLiquid)) := by
    have hgi := c1
    unfold condCheck at hgi
    simp only [molarFractions_spec h, Dict.getItem, hgw, hxw] at hgi
    rw [if_pos ⟨hc, hcond⟩] at hgi
    exact condSplit_molarGas hgi
  set n := c.molarLiquid with hn
  set x : String × FluidEntry ℝ → ℝ := fun q => if q.1 = w.1 then (Spec.moleFraction fd w - n) / (1 - n)
    else Spec.moleFraction fd q / (1 - n) with hx
  have hwk : w.1 ∈ Dict.keys fd := List.mem_map_of_mem (f := Prod.fst) hw
  have hform : c.molarGas = fd.map fun q => (q.1, x q) := by
    rw [hcform, List.map_map]
    exact set_map_val fd (fun q => Spec.moleFraction fd q / (1 - n)) w.1 _ h.nodup hwk
  have xw1 : Spec.moleFraction fd w ≤ 1 := by
    rw [← moleFraction_sum h]
    exact List.single_le_sum (fun z hz => by obtain ⟨b, hb, rfl⟩ := List.mem_map.1 hz; exact moleFraction_nonneg h hb) _
      (List.mem_map.2 ⟨w, hw, rfl⟩)
  have n1 : n < 1 := lt_of_lt_of_le c3 xw1
  have d0 : 1 - n ≠ 0 := by linarith
  have hxn : ∀ q ∈ fd, 0 ≤ x q := by
    intro q hq
    simp only [hx]
    split_ifs
    · exact div_nonneg (by linarith) (by linarith)
    · exact div_nonneg (moleFraction_nonneg h hq) (by linarith)
  have hxwv : x w = (Spec.moleFraction fd w - n) / (1 - n) := by simp only [hx, if_true]
  have hsat : pamb * x w = w.2.w.pSat Tamb := by
    have : Dict.get? c.molarGas w.1 = some (x w) := by rw [hform]; exact get?_map_val fd x w.1 w.2 hgw
    rw [this] at g1
    rw [Option.some.inj g1]; exact g2
  have hw0 : x w ≠ 0 := fun h0 => by rw [h0, mul_zero] at hsat; exact hs.ne hsat
  refine ⟨n, x, c2, n1, hxn, ?_, hsat, ?_, ?_, ?_⟩
  · have := c6.2
    rw [hform, List.map_map] at this
    exact this
  · rw [hxwv]; field_simp; ring
  · intro q hq hqw
    simp only [hx, if_neg hqw]
    field_simp
  · rw [calc_mix h2]
    have hl := chemLoop_eq (al := al) (tab := tab) (T := Tamb) (liq := n) (e := e) (eL := eL) (w := w.1) h.nodup x c2.le fd
      (fun _ hq => hq) hxn (fun q hq hxq => he q hq fun hy => ?_) (fun _ => hwater) (fun _ => heL)
    · have hs' : chemSplit (some w.1) pamb Tamb fd (fd.map fun q => (q.1, Spec.moleFraction fd q)) =
          .ok (fd.map fun q => (q.1, x q), n) := by
        unfold chemSplit
        simp only [c1, hform, ← hn]
      rw [chemMix_eq h hs' hl]
      have hone : (fd.map fun q => if q.1 = w.1 ∧ x q ≠ 0 then n * eL else 0).sum = n * eL := by
        have key : ∀ l : FluidData ℝ, (Dict.keys l).Nodup → w ∈ l →
            (l.map fun q => if q.1 = w.1 ∧ x q ≠ 0 then n * eL else 0).sum = n * eL := by
          intro l
          induction l with
          | nil => intro _ hm; simp at hm
          | cons q l ih =>
            intro hnd hm
            have hnd' : q.1 ∉ Dict.keys l ∧ (Dict.keys l).Nodup := by simpa [Dict.keys] using hnd
            simp only [List.map_cons, List.sum_cons]
            rcases List.mem_cons.1 hm with e1 | m1
            · subst e1
              rw [if_pos ⟨rfl, hw0⟩]
              have : (l.map fun q => if q.1 = w.1 ∧ x q ≠ 0 then n * eL else 0).sum = 0 := by
                refine List.sum_eq_zero fun z hz => ?_
                obtain ⟨b, hb, rfl⟩ := List.mem_map.1 hz
                rw [if_neg]
                rintro ⟨hb', -⟩
                exact hnd'.1 (hb' ▸ List.mem_map_of_mem (f := Prod.fst) hb)
              rw [this, add_zero]
            · rw [ih hnd'.2 m1, if_neg, zero_add]
              rintro ⟨hb', -⟩
              exact hnd'.1 (hb' ▸ List.mem_map_of_mem (f := Prod.fst) m1)
        exact key fd h.nodup hw
      rw [hone]
      rfl
    · by_cases hqw : q.1 = w.1
      · have hqe : q = w := by
          have := Dict.get?_of_mem h.nodup hq
          rw [hqw, hgw] at this
          exact Prod.ext hqw (Option.some.inj this).symm
        have : Spec.moleFraction fd w = 0 := by unfold Spec.moleFraction; rw [← hqe, hy]; simp
        rw [this] at hcond
        linarith
      · refine hxq ?_
        simp only [hx, if_neg hqw]
        unfold Spec.moleFraction
        rw [hy]; simp

/-! ### second law -/

theorem list_sum_le {α : Type} {f g : α → ℝ} : ∀ {l : List α}, (∀ a ∈ l, f a ≤ g a) → (l.map f).sum ≤ (l.map g).sum
  | [], _ => by simp
  | a :: l, h => by
    simp only [List.map_cons, List.sum_cons]
    have h1 := h a (by simp)
    have h2 := list_sum_le (l := l) fun b hb => h b (by simp [hb])
    linarith

theorem list_sum_add {α : Type} (f g : α → ℝ) (l : List α) : (l.map fun a => f a + g a).sum = (l.map f).sum + (l.map g).sum := by
  induction l with
  | nil => simp
  | cons a l ih => simp only [List.map_cons, List.sum_cons, ih]; ring

theorem list_sum_mul {α : Type} (c : ℝ) (f : α → ℝ) (l : List α) : (l.map fun a => c * f a).sum = c * (l.map f).sum := by
  induction l with
  | nil => simp
  | cons a l ih => simp only [List.map_cons, List.sum_cons, ih]; ring

/-- `x ln x ≥ x - r + x ln r` -/
theorem gibbs_term {x r : ℝ} (hx : 0 ≤ x) (hr : 0 < r) : x - r ≤ x * Real.log x - x * Real.log r := by
  rcases hx.eq_or_lt with rfl | hx
  · simp; exact hr.le
  · have h1 := Real.log_le_sub_one_of_pos (div_pos hr hx)
    rw [Real.log_div hr.ne' hx.ne'] at h1
    have h2 := mul_le_mul_of_nonneg_left h1 hx.le
    have h3 : x * (r / x - 1) = r - x := by field_simp
    rw [h3] at h2
    linarith

/-- the molar exergy of a gas phase is not negative, if the equilibrium environment has room for all species -/
theorem gasExergy_nonneg {T : ℝ} (hT : 0 < T) (l : FluidData ℝ) (x : String × FluidEntry ℝ → ℝ) (e : String → ℝ)
    (hx : ∀ q ∈ l, 0 ≤ x q) (h1 : (l.map x).sum = 1)
    (hG : (l.map fun q => Real.exp (-(e q.1 / (8.314462618 / 1000 * T)))).sum ≤ 1) : 0 ≤ Spec.gasExergy T l x e := by
  set R : ℝ := 8.314462618 / 1000 * T with hR
  have hRp : 0 < R := by rw [hR]; positivity
  have key := list_sum_le (l := l) (f := fun q => x q + -1 * Real.exp (-(e q.1 / R)))
    (g := fun q => x q * Real.log (x q) + 1 / R * (x q * e q.1)) (fun q hq => by
      have := gibbs_term (hx q hq) (Real.exp_pos (-(e q.1 / R)))
      rw [Real.log_exp] at this
      have h3 : 1 / R * (x q * e q.1) = x q * (e q.1 / R) := by ring
      linarith)
  rw [list_sum_add, list_sum_add, list_sum_mul, list_sum_mul, h1] at key
  have h0 : 0 ≤ (l.map fun q => x q * Real.log (x q)).sum + 1 / R * (l.map fun q => x q * e q.1).sum := by linarith
  have h2 := mul_nonneg hRp.le h0
  unfold Spec.gasExergy
  rw [← hR]
  have h3 : R * (1 / R * (l.map fun q => x q * e q.1).sum) = (l.map fun q => x q * e q.1).sum := by
    field_simp
  rw [mul_add, h3] at h2
  linarith

/-- **C89** Chemical exergy is not negative, dry or condensing, if the reference environment implied by the table at the ambient
temperature exists: a species with molar exergy `e` has the mole fraction `exp(-e/RT)` in it, and these do not exceed 1 in sum. -/
theorem C89_nonnegative (al : String → List String) (tab : ChemTable) (water : Option String) (pamb Tamb : ℝ)
    (hp : 0 < pamb) (hT : 0 < Tamb) (fd : FluidData ℝ)
    (h : Spec.Composition fd) (h2 : Spec.AtLeastTwo fd) (e : String → ℝ)
    (he : ∀ q ∈ fd, q.2.y ≠ 0 → Spec.GasValue tab (al q.1) (e q.1))
    (hw : ∀ w, water = some w → w ∈ Dict.keys fd ∧ (∀ q ∈ fd, q.1 = w → 0 < q.2.w.pSat Tamb) ∧
      (∀ q ∈ fd, "water" ∈ al q.1 ↔ q.1 = w) ∧ ∃ eL, 0 ≤ eL ∧ Spec.LiquidValue tab (al w) eL)
    (hG : (fd.map fun q => Real.exp (-(e q.1 / (8.314462618 / 1000 * Tamb)))).sum ≤ 1) :
    ∃ v, calcChemExergy al tab water (some "ideal-cond") pamb Tamb fd = .ok v ∧ 0 ≤ v := by
  by_cases hd : Spec.DryAt water pamb Tamb fd
  · refine ⟨_, C89_dry al tab water pamb Tamb fd h h2 hd e he, ?_⟩
    have := gasExergy_nonneg hT fd (Spec.moleFraction fd) e (fun q hq => moleFraction_nonneg h hq) (moleFraction_sum h) hG
    exact div_nonneg (mul_nonneg (by norm_num) this) (mixMass_pos h).le
  · unfold Spec.DryAt at hd
    push Not at hd
    obtain ⟨w, rfl, hnd⟩ := hd
    obtain ⟨hk, hs, hal, eL, heL0, heL⟩ := hw w rfl
    obtain ⟨q, hq, rfl⟩ := List.mem_map.1 hk
    obtain ⟨hc, hcond⟩ := hnd q hq rfl
    obtain ⟨n, x, n0, n1, hx, hx1, -, -, -, hv⟩ := C89_condensing al tab pamb Tamb fd h h2 q hq hp (hs q hq rfl)
      (by simpa using hc) hcond hal e he eL heL
    refine ⟨_, hv, ?_⟩
    have := gasExergy_nonneg hT fd x e hx hx1 hG
    refine div_nonneg (mul_nonneg (by norm_num) (add_nonneg (mul_nonneg n0.le heL0) (mul_nonneg (by linarith) this)))
      (mixMass_pos h).le

theorem mul_log_nonpos' {x : ℝ} (h0 : 0 ≤ x) (h1 : x ≤ 1) : x * Real.log x ≤ 0 :=
  mul_nonpos_of_nonneg_of_nonpos h0 (Real.log_nonpos h0 h1)

/-- **C89** Mixing destroys chemical exergy: a dry mixture has less than its species have on their own. -/
theorem C89_mixing_loss (al : String → List String) (tab : ChemTable) (water : Option String) (pamb Tamb : ℝ)
    (hT : 0 < Tamb) (fd : FluidData ℝ) (h : Spec.Composition fd) (h2 : Spec.AtLeastTwo fd)
    (hd : Spec.DryAt water pamb Tamb fd) (e : String → ℝ)
    (he : ∀ q ∈ fd, q.2.y ≠ 0 → Spec.GasValue tab (al q.1) (e q.1)) :
    ∃ v, calcChemExergy al tab water (some "ideal-cond") pamb Tamb fd = .ok v ∧
      v < (fd.map fun q => q.2.y * (1000 * e q.1 / q.2.w.M)).sum := by
  refine ⟨_, C89_dry al tab water pamb Tamb fd h h2 hd e he, ?_⟩
  have hM := mixMass_pos h
  have hS := molar_sum_pos h
  rw [div_lt_iff₀ hM]
  have hxs : (fd.map fun q => q.2.y * (1000 * e q.1 / q.2.w.M)).sum * Spec.mixMass fd =
      1000 * (fd.map fun q => Spec.moleFraction fd q * e q.1).sum := by
    rw [mul_comm, ← list_sum_mul, ← list_sum_mul, mixMass_eq h]
    congr 1
    refine List.map_congr_left fun q hq => ?_
    have := (h.molar q hq).ne'
    unfold Spec.moleFraction
    field_simp
  rw [hxs]
  unfold Spec.gasExergy
  have hneg : (fd.map fun q => Spec.moleFraction fd q * Real.log (Spec.moleFraction fd q)).sum < 0 := by
    obtain ⟨a, ha, b, hb, hne, ya, yb⟩ := h2
    have ya' : 0 < a.2.y := by linarith [show (0 : ℝ) < 1 / 1000000 by norm_num]
    have yb' : 0 < b.2.y := by linarith [show (0 : ℝ) < 1 / 1000000 by norm_num]
    have xa : 0 < Spec.moleFraction fd a := div_pos (div_pos ya' (h.molar a ha)) hS
    have xb : 0 < Spec.moleFraction fd b := div_pos (div_pos yb' (h.molar b hb)) hS
    have le1 : ∀ q ∈ fd, Spec.moleFraction fd q ≤ 1 := fun q hq => by
      rw [← moleFraction_sum h]
      exact List.single_le_sum (fun z hz => by obtain ⟨b, hb, rfl⟩ := List.mem_map.1 hz; exact moleFraction_nonneg h hb) _
        (List.mem_map.2 ⟨q, hq, rfl⟩)
    have two : ∀ l : FluidData ℝ, (∀ q ∈ l, 0 ≤ Spec.moleFraction fd q) → a ∈ l → b ∈ l →
        Spec.moleFraction fd a + Spec.moleFraction fd b ≤ (l.map (Spec.moleFraction fd)).sum := by
      intro l
      induction l with
      | nil => intro _ hm; simp at hm
      | cons q l ih =>
        intro hnn hm1 hm2
        have hnn' : ∀ q ∈ l, 0 ≤ Spec.moleFraction fd q := fun a ha => hnn a (by simp [ha])
        have single : ∀ a ∈ l, Spec.moleFraction fd a ≤ (l.map (Spec.moleFraction fd)).sum := fun a ha =>
          List.single_le_sum (fun z hz => by obtain ⟨b, hb, rfl⟩ := List.mem_map.1 hz; exact hnn' b hb) _
            (List.mem_map.2 ⟨a, ha, rfl⟩)
        simp only [List.map_cons, List.sum_cons]
        rcases List.mem_cons.1 hm1 with e1 | m1
        · rcases List.mem_cons.1 hm2 with e2 | m2
          · exact absurd (by rw [e2, e1]) hne
          · rw [e1]; have := single b m2; linarith
        · rcases List.mem_cons.1 hm2 with e2 | m2
          · rw [e2]; have := single a m1; linarith
          · have := ih hnn' m1 m2
            have := hnn q (by simp)
            linarith
    have hab := two fd (fun q hq => moleFraction_nonneg h hq) ha hb
    rw [moleFraction_sum h] at hab
    have hla : Spec.moleFraction fd a * Real.log (Spec.moleFraction fd a) < 0 :=
      mul_neg_of_pos_of_neg xa (Real.log_neg xa (by linarith))
    have rest : ∀ l : FluidData ℝ, (∀ q ∈ l, q ∈ fd) → a ∈ l →
        (l.map fun q => Spec.moleFraction fd q * Real.log (Spec.moleFraction fd q)).sum ≤
          Spec.moleFraction fd a * Real.log (Spec.moleFraction fd a) := by
      intro l
      induction l with
      | nil => intro _ hm; simp at hm
      | cons q l ih =>
        intro hsub hm
        simp only [List.map_cons, List.sum_cons]
        rcases List.mem_cons.1 hm with e1 | m1
        · subst e1
          have : (l.map fun q => Spec.moleFraction fd q * Real.log (Spec.moleFraction fd q)).sum ≤ 0 := by
            have := list_sum_le (l := l) (f := fun q => Spec.moleFraction fd q * Real.log (Spec.moleFraction fd q))
              (g := fun _ => 0) (fun q hq => mul_log_nonpos' (moleFraction_nonneg h (hsub q (by simp [hq])))
                (le1 q (hsub q (by simp [hq]))))
            simpa using this
          linarith
        · have := ih (fun q hq => hsub q (by simp [hq])) m1
          have := mul_log_nonpos' (moleFraction_nonneg h (hsub q (by simp))) (le1 q (hsub q (by simp)))
          linarith
    exact lt_of_le_of_lt (rest fd (fun _ hq => hq) ha) hla
  have : 8.314462618 / 1000 * Tamb * (fd.map fun q => Spec.moleFraction fd q * Real.log (Spec.moleFraction fd q)).sum < 0 :=
    mul_neg_of_pos_of_neg (by positivity) hneg
  linarith

/-! ### mixing of streams -/

/-- the log sum inequality -/
theorem log_sum_term {a b A B : ℝ} (ha : 0 ≤ a) (hb : 0 ≤ b) (hA : 0 < A) (hB : 0 < B) :
    (a + b) * Real.log ((a + b) / (A + B)) ≤ a * Real.log (a / A) + b * Real.log (b / B) := by
  rcases (add_nonneg ha hb).eq_or_lt with h0 | hc
  · have ha0 : a = 0 := by linarith
    have hb0 : b = 0 := by linarith
    simp [ha0, hb0]
  have hC : 0 < A + B := by linarith
  have hr : 0 < (a + b) / (A + B) := div_pos hc hC
  have t : ∀ z Z : ℝ, 0 ≤ z → 0 < Z → z * Real.log ((a + b) / (A + B)) + (z - Z * ((a + b) / (A + B))) ≤ z * Real.log (z / Z) := by
    intro z Z hz hZ
    have h1 := gibbs_term (div_nonneg hz hZ.le) hr
    have h2 := mul_le_mul_of_nonneg_left h1 hZ.le
    have h3 : Z * (z / Z - (a + b) / (A + B)) = z - Z * ((a + b) / (A + B)) := by field_simp
    have h4 : Z * (z / Z * Real.log (z / Z) - z / Z * Real.log ((a + b) / (A + B))) =
        z * Real.log (z / Z) - z * Real.log ((a + b) / (A + B)) := by field_simp
    rw [h3, h4] at h2
    linarith
  have h1 := t a A ha hA
  have h2 := t b B hb hB
  have h3 : (A + B) * ((a + b) / (A + B)) = a + b := by field_simp
  have h4 : A * ((a + b) / (A + B)) + B * ((a + b) / (A + B)) = a + b := by rw [← add_mul, h3]
  rw [add_mul]
  linarith

namespace Spec

/-- Streams of the same species with different mass fractions. -/
def withFractions (l : List (String × Wrapper ℝ)) (y : String → ℝ) : FluidData ℝ := l.map fun q => (q.1, ⟨y q.1, q.2⟩)

end Spec

/-- exergy per mass with moles per mass -/
theorem gasExergy_mass {l : List (String × Wrapper ℝ)} {y : String → ℝ} {T : ℝ} {e : String → ℝ}
    (h : Spec.Composition (Spec.withFractions l y)) :
    1000 * Spec.gasExergy T (Spec.withFractions l y) (Spec.moleFraction (Spec.withFractions l y)) e /
        Spec.mixMass (Spec.withFractions l y) =
      1000 * ((l.map fun q => y q.1 / q.2.M * e q.1).sum + 8.314462618 / 1000 * T *
        (l.map fun q => y q.1 / q.2.M * Real.log (y q.1 / q.2.M / (l.map fun q => y q.1 / q.2.M).sum)).sum) := by
  have hS := molar_sum_pos h
  rw [mixMass_eq h]
  have hSe : ((Spec.withFractions l y).map fun e => e.2.y / e.2.w.M).sum = (l.map fun q => y q.1 / q.2.M).sum := by
    unfold Spec.withFractions; rw [List.map_map]; rfl
  rw [hSe] at hS ⊢
  unfold Spec.gasExergy Spec.moleFraction
  rw [hSe]
  unfold Spec.withFractions
  rw [List.map_map, List.map_map]
  set S := (l.map fun q => y q.1 / q.2.M).sum
  rw [div_div_eq_mul_div, div_one, mul_assoc, add_mul, mul_assoc, mul_comm (List.sum _) S, mul_comm (List.sum _) S,
    ← list_sum_mul, ← list_sum_mul]
  have e1 : ∀ q : String × Wrapper ℝ, S * (((fun q : String × FluidEntry ℝ => q.2.y / q.2.w.M / S * e q.1) ∘
      fun q : String × Wrapper ℝ => (q.1, (⟨y q.1, q.2⟩ : FluidEntry ℝ))) q) = y q.1 / q.2.M * e q.1 := by
    intro q
    simp only [Function.comp]
    have := hS.ne'
    field_simp
  have e2 : ∀ q : String × Wrapper ℝ, S * (((fun q : String × FluidEntry ℝ => q.2.y / q.2.w.M / S *
      Real.log (q.2.y / q.2.w.M / S)) ∘
      fun q : String × Wrapper ℝ => (q.1, (⟨y q.1, q.2⟩ : FluidEntry ℝ))) q) =
      y q.1 / q.2.M * Real.log (y q.1 / q.2.M / S) := by
    intro q
    simp only [Function.comp]
    have := hS.ne'
    generalize Real.log _ = g
    field_simp
  simp only [e1, e2]

/-- **C89** Mixing of two dry streams destroys chemical exergy: the mixture has at most the sum of the exergies of the streams. -/
theorem C89_merge (al : String → List String) (tab : ChemTable) (water : Option String) (pamb Tamb : ℝ) (hT : 0 < Tamb)
    (l : List (String × Wrapper ℝ)) (y1 y2 y : String → ℝ) (m1 m2 : ℝ) (hm1 : 0 < m1) (hm2 : 0 < m2)
    (hy : ∀ q ∈ l, (m1 + m2) * y q.1 = m1 * y1 q.1 + m2 * y2 q.1) (e : String → ℝ)
    (he : ∀ q ∈ l, Spec.GasValue tab (al q.1) (e q.1))
    (h1 : Spec.Composition (Spec.withFractions l y1)) (h2 : Spec.Composition (Spec.withFractions l y2))
    (h3 : Spec.Composition (Spec.withFractions l y)) (t1 : Spec.AtLeastTwo (Spec.withFractions l y1))
    (t2 : Spec.AtLeastTwo (Spec.withFractions l y2)) (t3 : Spec.AtLeastTwo (Spec.withFractions l y))
    (d1 : Spec.DryAt water pamb Tamb (Spec.withFractions l y1)) (d2 : Spec.DryAt water pamb Tamb (Spec.withFractions l y2))
    (d3 : Spec.DryAt water pamb Tamb (Spec.withFractions l y)) :
    ∃ v1 v2 v, calcChemExergy al tab water (some "ideal-cond") pamb Tamb (Spec.withFractions l y1) = .ok v1 ∧
      calcChemExergy al tab water (some "ideal-cond") pamb Tamb (Spec.withFractions l y2) = .ok v2 ∧
      calcChemExergy al tab water (some "ideal-cond") pamb Tamb (Spec.withFractions l y) = .ok v ∧
      (m1 + m2) * v ≤ m1 * v1 + m2 * v2 := by
  have hv : ∀ y : String → ℝ, ∀ q ∈ Spec.withFractions l y, q.2.y ≠ 0 → Spec.GasValue tab (al q.1) (e q.1) := by
    intro y q hq _
    obtain ⟨q', hq', rfl⟩ := List.mem_map.1 hq
    exact he q' hq'
  refine ⟨_, _, _, C89_dry al tab water pamb Tamb _ h1 t1 d1 e (hv y1), C89_dry al tab water pamb Tamb _ h2 t2 d2 e (hv y2),
    C89_dry al tab water pamb Tamb _ h3 t3 d3 e (hv y), ?_⟩
  rw [gasExergy_mass h1, gasExergy_mass h2, gasExergy_mass h3]
  have hS1 := molar_sum_pos h1
  have hS2 := molar_sum_pos h2
  have hSe : ∀ y : String → ℝ, ((Spec.withFractions l y).map fun e => e.2.y / e.2.w.M).sum =
      (l.map fun q => y q.1 / q.2.M).sum := by
    intro y; unfold Spec.withFractions; rw [List.map_map]; rfl
  rw [hSe] at hS1 hS2
  set S1 := (l.map fun q => y1 q.1 / q.2.M).sum with hS1e
  set S2 := (l.map fun q => y2 q.1 / q.2.M).sum with hS2e
  have hm : 0 < m1 + m2 := by linarith
  have hterm : ∀ q ∈ l, (m1 + m2) * (y q.1 / q.2.M) = m1 * (y1 q.1 / q.2.M) + m2 * (y2 q.1 / q.2.M) := by
    intro q hq
    rw [← mul_div_assoc, hy q hq]; ring
  have hS : (m1 + m2) * (l.map fun q => y q.1 / q.2.M).sum = m1 * S1 + m2 * S2 := by
    rw [hS1e, hS2e, ← list_sum_mul, ← list_sum_mul, ← list_sum_mul, ← list_sum_add]
    congr 1
    exact List.map_congr_left hterm
  set S := (l.map fun q => y q.1 / q.2.M).sum with hSd
  have hlin : (m1 + m2) * (l.map fun q => y q.1 / q.2.M * e q.1).sum =
      m1 * (l.map fun q => y1 q.1 / q.2.M * e q.1).sum + m2 * (l.map fun q => y2 q.1 / q.2.M * e q.1).sum := by
    rw [← list_sum_mul, ← list_sum_mul, ← list_sum_mul, ← list_sum_add]
    congr 1
    refine List.map_congr_left fun q hq => ?_
    rw [← mul_assoc, hterm q hq]; ring
  have hlog : (m1 + m2) * (l.map fun q => y q.1 / q.2.M * Real.log (y q.1 / q.2.M / S)).sum ≤
      m1 * (l.map fun q => y1 q.1 / q.2.M * Real.log (y1 q.1 / q.2.M / S1)).sum +
      m2 * (l.map fun q => y2 q.1 / q.2.M * Real.log (y2 q.1 / q.2.M / S2)).sum := by
    rw [← list_sum_mul, ← list_sum_mul, ← list_sum_mul, ← list_sum_add]
    refine list_sum_le fun q hq => ?_
    have n1 : 0 ≤ y1 q.1 / q.2.M := div_nonneg (h1.nonneg _ (List.mem_map.2 ⟨q, hq, rfl⟩)) (h1.molar _ (List.mem_map.2 ⟨q, hq, rfl⟩)).le
    have n2 : 0 ≤ y2 q.1 / q.2.M := div_nonneg (h2.nonneg _ (List.mem_map.2 ⟨q, hq, rfl⟩)) (h2.molar _ (List.mem_map.2 ⟨q, hq, rfl⟩)).le
    have key := log_sum_term (mul_nonneg hm1.le n1) (mul_nonneg hm2.le n2) (mul_pos hm1 hS1) (mul_pos hm2 hS2)
    rw [← hterm q hq, ← hS, mul_div_mul_left _ _ hm.ne', mul_div_mul_left _ _ hm1.ne', mul_div_mul_left _ _ hm2.ne'] at key
    linarith
  have hR : 0 < 8.314462618 / 1000 * Tamb := by positivity
  have := mul_le_mul_of_nonneg_left hlog hR.le
  nlinarith

/-! ### availability -/

theorem rowOf_chemHits {tab : ChemTable} {r : ChemRow} {rs : List ChemRow} :
    ∀ {aliases : List String}, chemHits tab aliases = r :: rs → Spec.ChemRowOf tab aliases r
  | [], h => by simp [chemHits] at h
  | a :: l, h => by
    unfold chemHits at h
    rcases hg : Dict.get? tab a with _ | r'
    · rw [List.filterMap_cons_none hg] at h
      obtain ⟨pre, k, post, rfl, hp, hk⟩ := rowOf_chemHits (aliases := l) h
      refine ⟨a :: pre, k, post, rfl, ?_, hk⟩
      intro b hb
      rcases List.mem_cons.1 hb with rfl | hb
      · exact (Dict.get?_eq_none_iff _ _).1 hg
      · exact hp b hb
    · rw [List.filterMap_cons_some hg] at h
      have : r' = r := (List.cons.inj h).1
      subst this
      exact ⟨[], a, l, rfl, by simp, hg⟩

theorem gasValue_of_first {tab : ChemTable} {aliases : List String} {v : ℝ}
    (h : firstValue ((chemHits tab aliases).map (·.gas)) = .ok v) : Spec.GasValue tab aliases v := by
  rcases hh : chemHits tab aliases with _ | ⟨r, rs⟩
  · rw [hh] at h; cases h
  · rw [hh, List.map_cons] at h
    rcases hg : r.gas with _ | g
    · rw [hg] at h; cases h
    · rw [hg] at h
      cases h
      exact ⟨r, rowOf_chemHits hh, hg⟩

theorem chemLoop_values {al : String → List String} {tab : ChemTable} {fd : FluidData ℝ} {T liq : ℝ} :
    ∀ {xs : Dict String ℝ} {r : ℝ × ℝ}, chemLoop al tab fd T liq xs = .ok r → ∀ q ∈ xs, q.2 ≠ 0 →
      ∃ v, Spec.GasValue tab (al q.1) v
  | [], _, _ => by simp
  | (f, x) :: xs, r, h => by
    intro q hq hx
    unfold chemLoop at h
    by_cases h0 : x = 0
    · rw [if_pos h0] at h
      rcases List.mem_cons.1 hq with rfl | hq
      · exact absurd h0 hx
      · exact chemLoop_values h q hq hx
    · rw [if_neg h0] at h
      split at h
      · cases h
      · split at h
        · cases h
        · split at h
          · cases h
          · rename_i v hv
            split at h
            · cases h
            · split at h
              · cases h
              · rename_i r' hr'
                rcases List.mem_cons.1 hq with rfl | hq
                · exact ⟨v, gasValue_of_first hv⟩
                · exact chemLoop_values hr' q hq hx

/-- **C89** For which dry mixtures there is a chemical exergy: exactly for those all of whose species, traces included, have a value
of the gas phase in the table. -/
theorem C89_available (al : String → List String) (tab : ChemTable) (water : Option String) (pamb Tamb : ℝ)
    (fd : FluidData ℝ) (h : Spec.Composition fd) (h2 : Spec.AtLeastTwo fd) (hd : Spec.DryAt water pamb Tamb fd) :
    (∃ v, calcChemExergy al tab water (some "ideal-cond") pamb Tamb fd = .ok v) ↔
      ∀ q ∈ fd, q.2.y ≠ 0 → ∃ e, Spec.GasValue tab (al q.1) e := by
  constructor
  · rintro ⟨v, hv⟩ q hq hy
    rw [calc_mix h2] at hv
    unfold chemMix at hv
    rw [molarFractions_spec h] at hv
    simp only [chemSplit_dry h hd] at hv
    split at hv
    · cases hv
    · rename_i c d hl
      have hx : Spec.moleFraction fd q ≠ 0 :=
        div_ne_zero (div_ne_zero hy (h.molar q hq).ne') (molar_sum_pos h).ne'
      exact chemLoop_values hl (q.1, Spec.moleFraction fd q) (List.mem_map.2 ⟨q, hq, rfl⟩) hx
  · intro hall
    classical
    let e : String → ℝ := fun f => if hf : ∃ v, Spec.GasValue tab (al f) v then hf.choose else 0
    refine ⟨_, C89_dry al tab water pamb Tamb fd h h2 hd e fun q hq hy => ?_⟩
    have hf := hall q hq hy
    simp only [e, dif_pos hf]
    exact hf.choose_spec

/-- **C89**, refuted that the table alone decides: mixtures with other mixing rules than "ideal-cond" have none whatever their species, and
a pure fluid has none if its name is missing (`IndexError`) or one of its rows has no reference phase (`TypeError`). -/
theorem C89_unavailable (al : String → List String) (tab : ChemTable) (water rule : Option String) (pamb Tamb : ℝ)
    (fd : FluidData ℝ) :
    (Spec.AtLeastTwo fd → rule ≠ some "ideal-cond" → calcChemExergy al tab water rule pamb Tamb fd = .error .keyError) ∧
    (∀ f e, Spec.OnlySpecies fd f e → (∀ a ∈ al f, a ∉ Dict.keys tab) →
      calcChemExergy al tab water rule pamb Tamb fd = .error .indexError) ∧
    (∀ f e, Spec.OnlySpecies fd f e → ∀ a ∈ al f, ∀ r, Dict.get? tab a = some r → r.ref = none →
      calcChemExergy al tab water rule pamb Tamb fd = .error .typeError) := by
  refine ⟨fun h2 hr => ?_, fun f e h ha => ?_, fun f e h a ha r hg hr => ?_⟩
  · unfold calcChemExergy
    rw [if_neg (numFluids_ne_one h2), if_neg hr]
  · have hf := filter_only h
    have hn : numFluids fd = 1 := by unfold numFluids; rw [hf]; rfl
    unfold calcChemExergy
    rw [if_pos hn, hf]
    simp only [List.head?_cons]
    unfold chemPure
    have : chemHits tab (al f) = [] := filterMap_none fun a h' => (Dict.get?_eq_none_iff _ _).2 (ha a h')
    rw [this]
    rfl
  · have hf := filter_only h
    have hn : numFluids fd = 1 := by unfold numFluids; rw [hf]; rfl
    unfold calcChemExergy
    rw [if_pos hn, hf]
    simp only [List.head?_cons]
    unfold chemPure
    have hmem : r ∈ chemHits tab (al f) := List.mem_filterMap.2 ⟨a, ha, hg⟩
    have key : ∀ l : List ChemRow, r ∈ l → refValues l = .error .typeError := by
      intro l
      induction l with
      | nil => simp
      | cons b l ih =>
        intro hm
        unfold refValues
        have hb : b.refValue = .error .typeError ∨ ∃ v, b.refValue = .ok v := by
          unfold ChemRow.refValue
          rcases b.ref with _ | ph
          · exact Or.inl rfl
          · cases ph <;> exact Or.inr ⟨_, rfl⟩
        rcases hb with hb | ⟨v, hb⟩
        · rw [hb]
        · rw [hb]
          simp only
          rcases List.mem_cons.1 hm with rfl | hm
          · unfold ChemRow.refValue at hb
            rw [hr] at hb
            cases hb
          · rw [ih hm]
    rw [key _ hmem]

/-- **C89** On connections: exergy flow is mass flow times specific exergy; without a table both are zero. -/
theorem C89_connection (al : String → List String) (tab : Option ChemTable) (water rule : Option String) (pamb Tamb m : ℝ)
    (fd : FluidData ℝ) :
    (tab = none → connChemExergy al tab water rule pamb Tamb m fd = .ok (0, 0)) ∧
    (∀ t, tab = some t → ∀ r, connChemExergy al tab water rule pamb Tamb m fd = .ok r →
      calcChemExergy al t water rule pamb Tamb fd = .ok r.1 ∧ r.2 = m * r.1) := by
  refine ⟨fun h => ?_, fun t h r hr => ?_⟩
  · rw [h]; simp [connChemExergy]
  · rw [h] at hr
    unfold connChemExergy at hr
    simp only at hr
    split at hr
    · cases hr
    · rename_i e he
      cases hr
      exact ⟨he, rfl⟩

/-! ### examples -/

/-- a fluid with molar mass `M` and saturation pressure of 7384 Pa (water at 40 °C) -/
noncomputable def chemW (M : ℝ) : Wrapper ℝ where
  M := M
  sqrtM := Real.sqrt M
  pMin := 0
  hPT := fun _ _ => 0
  sPT := fun _ _ => 0
  dPT := fun _ _ => 1
  viscPT := fun _ _ => 1
  hQT := fun _ _ => 0
  sQT := fun _ _ => 0
  dQT := fun _ _ => 1
  pSat := fun _ => 7384
  tSat := fun _ => 313
  belowTcrit := fun _ => true

/-- humid air: mole fractions 24/32, 7/32, 1/32 -/
noncomputable def chemAir : FluidData ℝ :=
  [("N2", ⟨672 / 914, chemW 28⟩), ("O2", ⟨224 / 914, chemW 32⟩), ("H2O", ⟨18 / 914, chemW 18⟩)]

/-- names -/
def chemAl (f : String) : List String :=
  if f = "H2O" then ["water", "WATER", "H2O"] else if f = "N2" then ["nitrogen", "NITROGEN", "N2"]
  else ["oxygen", "OXYGEN", "O2"]

/-- rows of data/ChemEx/Szargut2007.json -/
noncomputable def chemTab : ChemTable :=
  [("NITROGEN", ⟨none, none, some 0.72, some .gas⟩), ("OXYGEN", ⟨none, none, some 3.97, some .gas⟩),
    ("WATER", ⟨none, some 0.9, some 9.5, some .liquid⟩)]

/-- values of these rows -/
noncomputable def chemE (f : String) : ℝ := if f = "H2O" then 9.5 else if f = "N2" then 0.72 else 3.97

theorem chemAir_ok : Spec.Composition chemAir := by
  refine ⟨by decide, ?_, ?_, ?_⟩
  · intro q hq
    simp only [chemAir, List.mem_cons, List.not_mem_nil, or_false] at hq
    rcases hq with rfl | rfl | rfl <;> norm_num
  · norm_num [chemAir]
  · intro q hq
    simp only [chemAir, List.mem_cons, List.not_mem_nil, or_false] at hq
    rcases hq with rfl | rfl | rfl <;> norm_num [chemW]

theorem chemAir_two : Spec.AtLeastTwo chemAir :=
  ⟨("N2", ⟨672 / 914, chemW 28⟩), by simp [chemAir], ("O2", ⟨224 / 914, chemW 32⟩), by simp [chemAir], by decide,
    by norm_num, by norm_num⟩

theorem chemAir_values : ∀ q ∈ chemAir, Spec.GasValue chemTab (chemAl q.1) (chemE q.1) := by
  intro q hq
  simp only [chemAir, List.mem_cons, List.not_mem_nil, or_false] at hq
  rcases hq with rfl | rfl | rfl
  · exact ⟨_, ⟨["nitrogen"], "NITROGEN", ["N2"], by simp [chemAl], by simp [chemTab, Dict.keys], rfl⟩, by simp [chemE]⟩
  · exact ⟨_, ⟨["oxygen"], "OXYGEN", ["O2"], by simp [chemAl], by simp [chemTab, Dict.keys], rfl⟩, by simp [chemE]⟩
  · exact ⟨_, ⟨["water"], "WATER", ["H2O"], by simp [chemAl], by simp [chemTab, Dict.keys], rfl⟩, by simp [chemE]⟩

theorem chemAir_dry (T : ℝ) : Spec.DryAt (some "H2O") 101325 T chemAir := by
  intro w hw
  cases hw
  refine ⟨("H2O", ⟨18 / 914, chemW 18⟩), by simp [chemAir], rfl, Or.inr ?_⟩
  norm_num [Spec.moleFraction, chemAir, chemW]

theorem log_three_le : Real.log 3 ≤ 19 / 12 * Real.log 2 + 7153 / (12 * 524288) := by
  have h := Real.log_le_sub_one_of_pos (show (0 : ℝ) < 3 ^ 12 / 2 ^ 19 by norm_num)
  rw [Real.log_div (by norm_num) (by norm_num), Real.log_pow, Real.log_pow] at h
  norm_num at h
  linarith

theorem log_seven_le : Real.log 7 ≤ 14 / 5 * Real.log 2 + 423 / (5 * 16384) := by
  have h := Real.log_le_sub_one_of_pos (show (0 : ℝ) < 7 ^ 5 / 2 ^ 14 by norm_num)
  rw [Real.log_div (by norm_num) (by norm_num), Real.log_pow, Real.log_pow] at h
  norm_num at h
  linarith

/-- **C89**, refuted: chemical exergy may be negative. The tables hold for 25 °C but are used at every ambient temperature: at 40 °C
the humid air with 75 % nitrogen, 21.9 % oxygen and 3.1 % water (not saturated) has a negative chemical exergy with the values of
Szargut (2007). -/
theorem C89_negative_false : ∃ v, Spec.Composition chemAir ∧
    calcChemExergy chemAl chemTab (some "H2O") (some "ideal-cond") 101325 313.15 chemAir = .ok v ∧ v < 0 := by
  refine ⟨_, chemAir_ok, C89_dry _ _ _ _ _ _ chemAir_ok chemAir_two (chemAir_dry _) chemE
    (fun q hq _ => chemAir_values q hq), ?_⟩
  refine div_neg_of_neg_of_pos ?_ (mixMass_pos chemAir_ok)
  have hx1 : Spec.moleFraction chemAir ("N2", ⟨672 / 914, chemW 28⟩) = 3 / 4 := by
    norm_num [Spec.moleFraction, chemAir, chemW]
  have hx2 : Spec.moleFraction chemAir ("O2", ⟨224 / 914, chemW 32⟩) = 7 / 32 := by
    norm_num [Spec.moleFraction, chemAir, chemW]
  have hx3 : Spec.moleFraction chemAir ("H2O", ⟨18 / 914, chemW 18⟩) = 1 / 32 := by
    norm_num [Spec.moleFraction, chemAir, chemW]
  unfold Spec.gasExergy
  rw [show (chemAir.map fun q => Spec.moleFraction chemAir q * chemE q.1) =
    [3 / 4 * chemE "N2", 7 / 32 * chemE "O2", 1 / 32 * chemE "H2O"] by rw [← hx1, ← hx2, ← hx3]; rfl]
  rw [show (chemAir.map fun q => Spec.moleFraction chemAir q * Real.log (Spec.moleFraction chemAir q)) =
    [3 / 4 * Real.log (3 / 4), 7 / 32 * Real.log (7 / 32), 1 / 32 * Real.log (1 / 32)] by
      rw [← hx1, ← hx2, ← hx3]; rfl]
  simp only [List.sum_cons, List.sum_nil]
  have e1 : chemE "N2" = 0.72 := by simp [chemE]
  have e2 : chemE "O2" = 3.97 := by simp [chemE]
  have e3 : chemE "H2O" = 9.5 := by simp [chemE]
  rw [e1, e2, e3]
  have l1 : Real.log (3 / 4 : ℝ) = Real.log 3 - 2 * Real.log 2 := by
    rw [Real.log_div (by norm_num) (by norm_num), show (4 : ℝ) = 2 ^ 2 by norm_num, Real.log_pow]; norm_num
  have l2 : Real.log (7 / 32 : ℝ) = Real.log 7 - 5 * Real.log 2 := by
    rw [Real.log_div (by norm_num) (by norm_num), show (32 : ℝ) = 2 ^ 5 by norm_num, Real.log_pow]; norm_num
  have l3 : Real.log (1 / 32 : ℝ) = - (5 * Real.log 2) := by
    rw [Real.log_div (by norm_num) (by norm_num), show (32 : ℝ) = 2 ^ 5 by norm_num, Real.log_pow]; norm_num
  rw [l1, l2, l3]
  have a := log_three_le
  have b := log_seven_le
  have c := Real.log_two_gt_d9
  have d : 3 / 4 * (Real.log 3 - 2 * Real.log 2) + (7 / 32 * (Real.log 7 - 5 * Real.log 2) + 1 / 32 * (-(5 * Real.log 2))) <
      -(0.656 : ℝ) := by linarith
  norm_num
  norm_num at d
  linarith

/-- at 25 °C it is not negative; the hypotheses of `C89_nonnegative` are met -/
example : ∃ v, calcChemExergy chemAl chemTab (some "H2O") (some "ideal-cond") 101325 298.15 chemAir = .ok v ∧ 0 ≤ v := by
  refine C89_nonnegative _ _ _ _ _ (by norm_num) (by norm_num) _ chemAir_ok chemAir_two chemE
    (fun q hq _ => chemAir_values q hq) ?_ ?_
  · intro w hw
    cases hw
    refine ⟨by simp [chemAir, Dict.keys], ?_, ?_, 0.9, by norm_num, _, ⟨["water"], "WATER", ["H2O"], by simp [chemAl],
      by simp [chemTab, Dict.keys], rfl⟩, rfl⟩
    · intro q hq _
      simp only [chemAir, List.mem_cons, List.not_mem_nil, or_false] at hq
      rcases hq with rfl | rfl | rfl <;> norm_num [chemW]
    · intro q hq
      simp only [chemAir, List.mem_cons, List.not_mem_nil, or_false] at hq
      rcases hq with rfl | rfl | rfl <;> simp [chemAl]
  · have hexp : ∀ a : ℝ, 0 ≤ a → Real.exp (-a) ≤ 1 / (1 + a + a ^ 2 / 2 + a ^ 3 / 6 + a ^ 4 / 24) := by
      intro a ha
      have := Real.sum_le_exp_of_nonneg ha 5
      simp only [Finset.sum_range_succ, Finset.sum_range_zero, Nat.factorial] at this
      rw [Real.exp_neg, ← one_div]
      refine one_div_le_one_div_of_le (by positivity) ?_
      norm_num at this ⊢
      linarith
    have e1 : chemE "N2" = 0.72 := by simp [chemE]
    have e2 : chemE "O2" = 3.97 := by simp [chemE]
    have e3 : chemE "H2O" = 9.5 := by simp [chemE]
    simp only [chemAir, List.map_cons, List.map_nil, List.sum_cons, List.sum_nil, e1, e2, e3]
    have h1 := hexp (0.72 / (8.314462618 / 1000 * 298.15)) (by norm_num)
    have h2 := hexp (3.97 / (8.314462618 / 1000 * 298.15)) (by norm_num)
    have h3 := hexp (9.5 / (8.314462618 / 1000 * 298.15)) (by norm_num)
    have h1' : (1 / (1 + 0.72 / (8.314462618 / 1000 * 298.15) + (0.72 / (8.314462618 / 1000 * 298.15)) ^ 2 / 2 +
      (0.72 / (8.314462618 / 1000 * 298.15)) ^ 3 / 6 + (0.72 / (8.314462618 / 1000 * 298.15)) ^ 4 / 24) : ℝ) ≤ 0.749 := by norm_num
    have h2' : (1 / (1 + 3.97 / (8.314462618 / 1000 * 298.15) + (3.97 / (8.314462618 / 1000 * 298.15)) ^ 2 / 2 +
      (3.97 / (8.314462618 / 1000 * 298.15)) ^ 3 / 6 + (3.97 / (8.314462618 / 1000 * 298.15)) ^ 4 / 24) : ℝ) ≤ 0.207 := by norm_num
    have h3' : (1 / (1 + 9.5 / (8.314462618 / 1000 * 298.15) + (9.5 / (8.314462618 / 1000 * 298.15)) ^ 2 / 2 +
      (9.5 / (8.314462618 / 1000 * 298.15)) ^ 3 / 6 + (9.5 / (8.314462618 / 1000 * 298.15)) ^ 4 / 24) : ℝ) ≤ 0.033 := by norm_num
    linarith

/-- hypotheses of `C89_condensing`: at twice the saturation pressure of the water -/
example : ∃ n v : ℝ, 0 < n ∧ n < 1 ∧
    calcChemExergy chemAl chemTab (some "H2O") (some "ideal-cond") 472576 313.15 chemAir = .ok v := by
  obtain ⟨n, x, h1, h2, -, -, -, -, -, h3⟩ := C89_condensing chemAl chemTab 472576 313.15 chemAir chemAir_ok chemAir_two
    ("H2O", ⟨18 / 914, chemW 18⟩) (by simp [chemAir]) (by norm_num) (by norm_num [chemW]) rfl
    (by norm_num [Spec.moleFraction, chemAir, chemW]) (by
      intro q hq
      simp only [chemAir, List.mem_cons, List.not_mem_nil, or_false] at hq
      rcases hq with rfl | rfl | rfl <;> simp [chemAl]) chemE (fun q hq _ => chemAir_values q hq) 0.9
    ⟨_, ⟨["water"], "WATER", ["H2O"], by simp [chemAl], by simp [chemTab, Dict.keys], rfl⟩, rfl⟩
  exact ⟨n, _, h1, h2, h3⟩

/-- hypotheses of `C89_pure`: water counts as liquid -/
example : calcChemExergy chemAl chemTab none none 101325 298.15 [("H2O", ⟨1, chemW 18⟩), ("N2", ⟨0, chemW 28⟩)] =
    .ok (1000 * 0.9 / 18) := by
  refine C89_pure _ _ _ _ _ _ _ "H2O" ⟨1, chemW 18⟩ ⟨by decide, by simp, by norm_num [ERR], ?_⟩ (by norm_num [chemW])
    ⟨none, some 0.9, some 9.5, some .liquid⟩
    ⟨["water"], "WATER", ["H2O"], by simp [chemAl], by simp [chemTab, Dict.keys], rfl⟩ ?_ 0.9 (by simp)
  · intro q hq hne
    simp only [List.mem_cons, List.not_mem_nil, or_false] at hq
    rcases hq with rfl | rfl
    · exact absurd rfl hne
    · norm_num [ERR]
  · intro a ha r hr
    simp [chemAl] at ha
    rcases ha with rfl | rfl | rfl
    · simp [chemTab, Dict.get?] at hr
    · simp [chemTab, Dict.get?] at hr; rw [← hr]; simp
    · simp [chemTab, Dict.get?] at hr

/-- hypotheses of `C89_merge`: dry air and a mixture of nitrogen and oxygen in equal parts -/
example : ∃ v1 v2 v, calcChemExergy chemAl chemTab none (some "ideal-cond") 1 298 (Spec.withFractions
      [("N2", chemW 28), ("O2", chemW 32)] fun f => if f = "N2" then 3 / 4 else 1 / 4) = .ok v1 ∧
    calcChemExergy chemAl chemTab none (some "ideal-cond") 1 298 (Spec.withFractions
      [("N2", chemW 28), ("O2", chemW 32)] fun f => if f = "N2" then 1 / 2 else 1 / 2) = .ok v2 ∧
    calcChemExergy chemAl chemTab none (some "ideal-cond") 1 298 (Spec.withFractions
      [("N2", chemW 28), ("O2", chemW 32)] fun f => if f = "N2" then 5 / 8 else 3 / 8) = .ok v ∧
    (1 + 1) * v ≤ 1 * v1 + 1 * v2 := by
  have comp : ∀ a b : ℝ, 1 / 1000000 < a → 1 / 1000000 < b → a + b = 1 → Spec.Composition (Spec.withFractions
      [("N2", chemW 28), ("O2", chemW 32)] fun f => if f = "N2" then a else b) ∧ Spec.AtLeastTwo (Spec.withFractions
      [("N2", chemW 28), ("O2", chemW 32)] fun f => if f = "N2" then a else b) := by
    intro a b ha hb hab
    have z : (0 : ℝ) < 1 / 1000000 := by norm_num
    refine ⟨⟨by simp [Spec.withFractions, Dict.keys], ?_, by simpa [Spec.withFractions] using hab, ?_⟩, ("N2", ⟨a, chemW 28⟩),
      by simp [Spec.withFractions], ("O2", ⟨b, chemW 32⟩), by simp [Spec.withFractions], by simp, ha, hb⟩
    · intro q hq
      simp [Spec.withFractions] at hq
      rcases hq with rfl | rfl
      · exact (z.trans ha).le
      · exact (z.trans hb).le
    · intro q hq
      simp [Spec.withFractions] at hq
      rcases hq with rfl | rfl <;> norm_num [chemW]
  have d : ∀ fd, Spec.DryAt none 1 298 fd := fun fd w hw => by cases hw
  have c1 := comp (3 / 4) (1 / 4) (by norm_num) (by norm_num) (by norm_num)
  have c2 := comp (1 / 2) (1 / 2) (by norm_num) (by norm_num) (by norm_num)
  have c3 := comp (5 / 8) (3 / 8) (by norm_num) (by norm_num) (by norm_num)
  refine C89_merge _ _ _ _ _ (by norm_num) _ _ _ _ 1 1 one_pos one_pos ?_ chemE ?_ c1.1 c2.1 c3.1 c1.2 c2.2 c3.2 (d _) (d _) (d _)
  · intro q hq
    simp at hq
    rcases hq with rfl | rfl <;> simp <;> norm_num
  · intro q hq
    simp at hq
    rcases hq with rfl | rfl
    · exact chemAir_values ("N2", ⟨672 / 914, chemW 28⟩) (by simp [chemAir])
    · exact chemAir_values ("O2", ⟨224 / 914, chemW 32⟩) (by simp [chemAir])

end Tespy
