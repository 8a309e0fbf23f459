import Verif.Props.MixtureProps
/-
C44, C55: the functions of mixtures for every mixing rule, as formulas over the species.
-/
namespace Tespy
variable {K : Type} [Field K] [LinearOrder K] [IsStrictOrderedRing K]

namespace Spec

/-- Mole fraction of a species of a mixture: moles of the species per moles of all species. -/
def moleFraction (fd : FluidData K) (q : String × FluidEntry K) : K :=
  q.2.y / q.2.w.M / (fd.map fun e => e.2.y / e.2.w.M).sum

/-- Sum over all species with a mass fraction above 1e-6. -/
def speciesSum (fd : FluidData K) (g : String × FluidEntry K → K) : K :=
  ((fd.filter fun q => decide (1 / 1000000 < q.2.y)).map g).sum

/-- At least two species have a mass fraction above 1e-6. -/
def AtLeastTwo (fd : FluidData K) : Prop :=
  ∃ a ∈ fd, ∃ b ∈ fd, a.1 ≠ b.1 ∧ 1 / 1000000 < a.2.y ∧ 1 / 1000000 < b.2.y

/-- Enthalpy of a species in the rule "forced-gas": water at or below its saturation temperature
at the partial pressure counts as saturated vapour. -/
def forcedEnthalpy (T pp : K) (q : String × FluidEntry K) : K :=
  if q.1 = "H2O" ∧ q.2.w.pMin ≤ pp ∧ T ≤ q.2.w.tSat pp then q.2.w.hQT 1 T else q.2.w.hPT pp T

end Spec

theorem filter_detected (fd : FluidData K) :
    fd.filter detected = fd.filter fun q => decide (1 / 1000000 < q.2.y) := rfl

theorem numFluids_ne_one {fd : FluidData K} (h : Spec.AtLeastTwo fd) : numFluids fd ≠ 1 := by
  obtain ⟨a, ha, b, hb, hne, h1, h2⟩ := h
  intro hn
  unfold numFluids at hn
  rw [filter_detected] at hn
  obtain ⟨x, hx⟩ := List.length_eq_one_iff.mp hn
  have ha' : a ∈ [x] := by rw [← hx]; exact List.mem_filter.mpr ⟨ha, decide_eq_true h1⟩
  have hb' : b ∈ [x] := by rw [← hx]; exact List.mem_filter.mpr ⟨hb, decide_eq_true h2⟩
  simp only [List.mem_singleton] at ha' hb'
  exact hne (by rw [ha', hb'])

theorem molarOf_moleFraction {fd : FluidData K} (h : Spec.Composition fd) {q : String × FluidEntry K}
    (hq : q ∈ fd) :
    molarOf fd (fd.map fun e => e.2.y / e.2.w.M).sum q.1 = Spec.moleFraction fd q := by
  simp [molarOf, Dict.get?_of_mem h.nodup hq, Spec.moleFraction]

theorem sumPartial_spec {fd : FluidData K} (h : Spec.Composition fd) (g : FluidEntry K → K → K)
    (p : K) (xs : Dict String K) (hx : molarFractions fd = .ok xs) :
    sumPartial g p xs fd
      = .ok (Spec.speciesSum fd fun q => g q.2 (p * Spec.moleFraction fd q)) := by
  rw [molarFractions_eq h] at hx
  cases hx
  rw [sumPartial_eq _ p _ _ fd (molarOf_spec fd h.nodup _), filter_detected]
  unfold Spec.speciesSum
  congr 2
  refine List.map_congr_left fun q hq => ?_
  rw [molarOf_moleFraction h (List.mem_of_mem_filter hq)]

/-- C44: mixtures of at least two species. Enthalpy and entropy are sums of the properties of the
species, at their partial pressures ("ideal") or at the full pressure ("incompressible"), weighted
with the mass fractions. The volume of ideal mixtures is the reciprocal of the sum of the densities
at the partial pressures, that of incompressible mixtures the sum of the volumes. -/
theorem C44_mixing_rules (fd : FluidData K) (h : Spec.Composition fd) (h2 : Spec.AtLeastTwo fd)
    (water : Option String) (p T : K) :
    hMixPT water (some "ideal") p T fd = .ok (Spec.speciesSum fd fun q =>
      q.2.w.hPT (p * Spec.moleFraction fd q) T * q.2.y) ∧
    sMixPT water (some "ideal") p T fd = .ok (Spec.speciesSum fd fun q =>
      q.2.w.sPT (p * Spec.moleFraction fd q) T * q.2.y) ∧
    vMixPT water (some "ideal") p T fd = fdiv 1 (Spec.speciesSum fd fun q =>
      q.2.w.dPT (p * Spec.moleFraction fd q) T) ∧
    viscMixPT (some "ideal") p T fd =
      fdiv (Spec.speciesSum fd fun q =>
          Spec.moleFraction fd q * q.2.w.sqrtM * q.2.w.viscPT p T)
        (Spec.speciesSum fd fun q => Spec.moleFraction fd q * q.2.w.sqrtM) ∧
    hMixPT water (some "incompressible") p T fd = .ok (Spec.speciesSum fd fun q =>
      q.2.w.hPT p T * q.2.y) ∧
    sMixPT water (some "incompressible") p T fd = .ok (Spec.speciesSum fd fun q =>
      q.2.w.sPT p T * q.2.y) ∧
    vMixPT water (some "incompressible") p T fd = .ok (Spec.speciesSum fd fun q =>
      1 / q.2.w.dPT p T * q.2.y) ∧
    viscMixPT (some "incompressible") p T fd = .ok (Spec.speciesSum fd fun q =>
      q.2.w.viscPT p T * q.2.y) ∧
    hMixPT water (some "forced-gas") p T fd = .ok (Spec.speciesSum fd fun q =>
      Spec.forcedEnthalpy T (p * Spec.moleFraction fd q) q * q.2.y) := by
  have hn := numFluids_ne_one h2
  have hx := molarFractions_eq h
  refine ⟨?_, ?_, ?_, ?_, ?_, ?_, ?_, ?_, ?_⟩
  · simp only [hMixPT, if_neg hn, hMixIdeal, hx]
    rw [sumPartial_spec h _ p _ hx]
  · simp only [sMixPT, if_neg hn, sMixIdeal, hx]
    rw [sumPartial_spec h _ p _ hx]
  · simp only [vMixPT, if_neg hn, vMixIdeal, hx]
    rw [sumPartial_spec h _ p _ hx]
  · simp only [viscMixPT, if_neg hn, viscMixIdeal, hx]
    rw [sumPartial_spec h _ 1 _ hx, sumPartial_spec h _ 1 _ hx]
    simp only [one_mul]
  · simp only [hMixPT, if_neg hn, hMixIncomp, sumDetected]; rfl
  · simp only [sMixPT, if_neg hn, sMixIncomp, sumDetected]; rfl
  · simp only [vMixPT, if_neg hn, vMixIncomp, sumDetected]; rfl
  · simp only [viscMixPT, if_neg hn, viscMixIncomp, sumDetected]; rfl
  · simp only [hMixPT, if_neg hn, hMixForced, hx]
    rw [sumForced_eq T p _ _ fd (molarOf_spec fd h.nodup _), filter_detected]
    unfold Spec.speciesSum
    congr 2
    refine List.map_congr_left fun q hq => ?_
    rw [molarOf_moleFraction h (List.mem_of_mem_filter hq)]
    simp only [hForced, Spec.forcedEnthalpy]
    by_cases h1 : q.1 = "H2O" <;> by_cases h3 : q.2.w.pMin ≤ p * Spec.moleFraction fd q <;>
      by_cases h4 : T ≤ q.2.w.tSat (p * Spec.moleFraction fd q) <;> simp [h1, h3, h4]

/-- C44: without water the rule "ideal-cond" is the rule "ideal"; for the viscosity it always is. -/
theorem C44_no_water (fd : FluidData K) (h2 : Spec.AtLeastTwo fd) (water : Option String) (p T : K) :
    hMixPT none (some "ideal-cond") p T fd = hMixPT none (some "ideal") p T fd ∧
    sMixPT none (some "ideal-cond") p T fd = sMixPT none (some "ideal") p T fd ∧
    vMixPT none (some "ideal-cond") p T fd = vMixPT none (some "ideal") p T fd ∧
    viscMixPT (some "ideal-cond") p T fd = viscMixPT (some "ideal") p T fd := by
  have hn := numFluids_ne_one h2
  refine ⟨?_, ?_, ?_, ?_⟩
  · simp [hMixPT, hn, hMixCond]
  · simp [sMixPT, hn, sMixCond]
  · simp [vMixPT, hn, vMixCond]
  · simp [viscMixPT, hn]

/-- C44: unknown mixing rules are rejected, also "forced-gas" for entropy, volume and viscosity. -/
theorem C44_unknown_rule (fd : FluidData K) (h2 : Spec.AtLeastTwo fd) (water rule : Option String)
    (p T : K) (h1 : rule ≠ some "ideal") (h3 : rule ≠ some "ideal-cond")
    (h4 : rule ≠ some "incompressible") :
    sMixPT water rule p T fd = .error .keyError ∧ vMixPT water rule p T fd = .error .keyError ∧
      viscMixPT rule p T fd = .error .keyError ∧
      (rule ≠ some "forced-gas" → hMixPT water rule p T fd = .error .keyError) := by
  have hn := numFluids_ne_one h2
  refine ⟨?_, ?_, ?_, fun h5 => ?_⟩
  · unfold sMixPT; rw [if_neg hn]; split <;> simp_all
  · unfold vMixPT; rw [if_neg hn]; split <;> simp_all
  · unfold viscMixPT; rw [if_neg hn]; split <;> simp_all
  · unfold hMixPT; rw [if_neg hn]; split <;> simp_all

section
variable (fd : FluidData K) (h : Spec.Composition fd) (h2 : Spec.AtLeastTwo fd) (p T : K) (w : String)
  (e : FluidEntry K) (hw : Dict.get? fd w = some e) (hy : e.y < 1) (hp : 0 < p)
  (hs : 0 < e.w.pSat T) (hc : e.w.belowTcrit T = true) (xs : Dict String K) (xw : K)
  (hx : molarFractions fd = .ok xs) (hxw : Dict.get? xs w = some xw)
  (hcond : e.w.pSat T < p * xw)
include h h2 hw hy hp hs hc hx hxw hcond

/-- **C55, partial.** The functions `h_mix_pT` and `s_mix_pT` with the rule "ideal-cond" for a
condensing mixture: `liquid` is the mass of the liquid water, the gas contains the rest of the
water at the saturation pressure. Missing for the enthalpy: amounts of liquid below 1e-6
(`C55_onset_false`). -/
theorem C55_rule_partial : ∃ liquid : K, 0 < liquid ∧ liquid < e.y ∧ ∃ ξ : String → K,
    (fd.map fun q => ξ q.1).sum = 1 ∧ p * ξ w = e.w.pSat T ∧
    (1 / 1000000 < liquid → hMixPT (some w) (some "ideal-cond") p T fd
      = .ok (Spec.speciesSum fd fun q =>
        if q.1 = w then q.2.w.hQT 0 T * liquid + q.2.w.hQT 1 T * (q.2.y - liquid)
        else q.2.w.hPT (p * ξ q.1) T * q.2.y)) ∧
    sMixPT (some w) (some "ideal-cond") p T fd = .ok (Spec.speciesSum fd fun q =>
        if q.1 = w then q.2.w.sQT 0 T * liquid + q.2.w.sQT 1 T * (q.2.y - liquid)
        else q.2.w.sPT (p * ξ q.1) T * q.2.y) := by
  have hn := numFluids_ne_one h2
  obtain ⟨c, c1, c2, c3, η, ξ, h1, h2', h3, h4, h5, h6⟩ :=
    cond_lookup fd h p T w e hw hy hp hs hc xs xw hx hxw hcond
  have hform : ∀ (liq vap : FluidEntry K → K) (g : FluidEntry K → K → K),
      sumCond w liq vap g p c fd = .ok (Spec.speciesSum fd fun q =>
        if q.1 = w then liq q.2 * c.massLiquid + vap q.2 * (q.2.y - c.massLiquid)
        else g q.2 (p * ξ q.1) * q.2.y) := by
    intro liq vap g
    rw [sumCond_eq w _ _ _ p c η ξ fd h1 h2', filter_detected]
    unfold Spec.speciesSum
    congr 2
    refine List.map_congr_left fun q hq => ?_
    have hq' := List.mem_of_mem_filter hq
    by_cases hqw : q.1 = w
    · have hqe : q.2 = e := by
        have := Dict.get?_of_mem h.nodup hq'
        rw [hqw, hw] at this
        exact (Option.some.inj this).symm
      rw [if_pos hqw, if_pos hqw, hqw, hqe, ← h3]
      ring
    · rw [if_neg hqw, if_neg hqw]
      have := h4 q hq' hqw
      linear_combination (g q.2 (p * ξ q.1)) * this
  refine ⟨c.massLiquid, c2, c3, ξ, h5, h6, fun hE => ?_, ?_⟩
  · simp only [hMixPT, if_neg hn, hMixCond, c1]
    have hE' : ERR < c.massLiquid := hE
    rw [if_neg (not_not.2 hE'), hform]
  · simp only [sMixPT, if_neg hn, sMixCond, c1]
    rw [if_neg c2.ne', hform]

end

theorem mxHalf_two : Spec.AtLeastTwo mxHalf :=
  ⟨("H2O", ⟨1 / 2, mxWater⟩), by simp [mxHalf], ("gas", ⟨1 / 2, mxGas⟩), by simp [mxHalf],
    by decide, by norm_num, by norm_num⟩

/- hypotheses hold for equal masses of water and gas; the values differ between the rules -/
example : hMixPT (some "H2O") (some "ideal") 3 300 mxHalf = .ok 200 ∧
    hMixPT (some "H2O") (some "ideal-cond") 3 300 mxHalf = .ok (1025 / 2) ∧
    hMixPT (some "H2O") (some "forced-gas") 3 300 mxHalf = .ok 1450 ∧
    sMixPT (some "H2O") (some "forced-gas") 3 300 mxHalf = .error .keyError := by
  refine ⟨?_, ?_, ?_, ?_⟩ <;> decide +kernel

end Tespy
