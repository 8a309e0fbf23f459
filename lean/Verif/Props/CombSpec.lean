import Verif.Props.Combustion
import Mathlib.Algebra.BigOperators.Group.List.Basic
import Mathlib.Algebra.Order.Field.Rat
import Mathlib.Tactic.FieldSimp
import Mathlib.Tactic.Ring
import Mathlib.Tactic.LinearCombination

/-!
C115: air ratio and thermal input of combustion chambers fix the flows of air and fuel, and it does not matter which
inlet a stream is connected to.
-/
namespace Tespy

variable {F K : Type} [DecidableEq F] [Field K] [LinearOrder K] [IsStrictOrderedRing K]

omit [DecidableEq F] [LinearOrder K] [IsStrictOrderedRing K] in
/-- What the reaction knows about the inlets is the amount of each fluid. -/
theorem nIn_congr {d : CombData F K} {inl inl' : List (CombStream F K)}
    (h : ∀ f, (inl.map (fun i => i.m * i.x f)).sum = (inl'.map (fun i => i.m * i.x f)).sum) (f : F) :
    nIn d inl f = nIn d inl' f := by
  have e : ∀ l : List (CombStream F K),
      (l.map (fun i => i.m * i.x f / d.M f)).sum = (l.map (fun i => i.m * i.x f)).sum / d.M f := by
    intro l
    induction l with
    | nil => simp
    | cons a l ih => simp only [List.map_cons, List.sum_cons, ih]; ring
  unfold nIn
  rw [e, e, h f]

omit [IsStrictOrderedRing K] in
/-- C115: only the total amounts of the fluids matter to the reaction: streams may be mixed before they enter or enter
through any of the inlets. -/
theorem C115_mixed (d : CombData F K) (inl inl' : List (CombStream F K)) (out : CombStream F K)
    (h : ∀ f, (inl.map (fun i => i.m * i.x f)).sum = (inl'.map (fun i => i.m * i.x f)).sum) :
    (∀ spec f, stoichRes d inl out spec f = stoichRes d inl' out spec f) ∧
    (∀ l, lambdaRes d inl l = lambdaRes d inl' l) ∧
    combTi d inl out = combTi d inl' out := by
  have hn : nIn d inl = nIn d inl' := funext (nIn_congr h)
  have hC : nC d inl = nC d inl' := by unfold nC; rw [hn]
  have hH : nH d inl = nH d inl' := by unfold nH; rw [hn]
  have hO : nO2 d inl = nO2 d inl' := by unfold nO2; rw [hn]
  have hS : nStoich d inl = nStoich d inl' := by unfold nStoich; rw [hC, hH]
  have hl : calcLambda d inl = calcLambda d inl' := by unfold calcLambda; rw [hS, hO]
  have hdm : ∀ lam f, combDm d inl lam f = combDm d inl' lam f := by
    intro lam f
    unfold combDm cExc hExc fuelExc
    rw [hn, hC, hH, hO, hS]
  refine ⟨?_, ?_, ?_⟩
  · intro spec f
    have hx : (inl.map (fun i => i.x f * i.m)).sum = (inl'.map (fun i => i.x f * i.m)).sum := by
      have := h f
      simpa only [mul_comm] using this
    have hv : lambdaVal d inl spec = lambdaVal d inl' spec := by
      unfold lambdaVal; rw [hl]
    unfold stoichRes
    rw [hv, hx]
    cases lambdaVal d inl' spec with
    | error e => rfl
    | ok lam => simp only [hdm]
  · intro l; unfold lambdaRes; rw [hl]
  · unfold combTi
    exact Finset.sum_congr rfl (fun f _ => by rw [h f])

omit [IsStrictOrderedRing K] in
/-- C115: every equation of a combustion chamber and its results are the same if the streams are connected to its inlets
in another order. -/
theorem C115_inlet_order (d : CombData F K) (inl inl' : List (CombStream F K)) (out : CombStream F K)
    (h : inl.Perm inl') :
    (∀ spec f, stoichRes d inl out spec f = stoichRes d inl' out spec f) ∧
    (∀ l, lambdaRes d inl l = lambdaRes d inl' l) ∧
    combTi d inl out = combTi d inl' out ∧
    combMassRes inl out = combMassRes inl' out ∧
    (∀ eta, combEnergyRes d inl out eta = combEnergyRes d inl' out eta) ∧
    diabaticReported d inl out = diabaticReported d inl' out := by
  have hsum : ∀ g : CombStream F K → K, (inl.map g).sum = (inl'.map g).sum := fun g => (h.map g).sum_eq
  obtain ⟨h1, h2, h3⟩ := C115_mixed d inl inl' out (fun f => hsum _)
  refine ⟨h1, h2, h3, ?_, ?_, ?_⟩
  · unfold combMassRes; rw [hsum]
  · intro eta; unfold combEnergyRes; rw [hsum, h3]
  · unfold diabaticReported; rw [h3, hsum (fun i => i.m * (i.h - i.href))]

/-- C115: for given fuel streams exactly one flow of air, a stream with oxygen and without fuels, has the specified air
ratio. -/
theorem C115_lambda (d : CombData F K) (air : CombStream F K) (fs : List (CombStream F K)) (lam : K)
    (hM : d.M d.o2 ≠ 0) (hx : air.x d.o2 ≠ 0) (hair : ∀ f ∈ d.fuels, air.x f = 0) (hd : Spec.oxygenDemand d fs ≠ 0) :
    lambdaRes d (air :: fs) lam = .ok 0 ↔
      air.m = (lam * Spec.oxygenDemand d fs - Spec.supplied d fs d.o2) * d.M d.o2 / air.x d.o2 := by
  have hn : ∀ f ∈ d.fuels, nIn d (air :: fs) f = nIn d fs f := by
    intro f hf
    unfold nIn
    rw [List.map_cons, List.sum_cons, hair f hf]
    ring
  have hC : nC d (air :: fs) = nC d fs := Finset.sum_congr rfl (fun f hf => by rw [hn f hf])
  have hH : nH d (air :: fs) = nH d fs := Finset.sum_congr rfl (fun f hf => by rw [hn f hf])
  have hS : nStoich d (air :: fs) = Spec.oxygenDemand d fs := by
    rw [← nStoich_eq]; unfold nStoich; rw [hC, hH]
  have hO : nO2 d (air :: fs) = air.m * air.x d.o2 / d.M d.o2 + Spec.supplied d fs d.o2 := by
    unfold nO2 nIn Spec.supplied
    rw [List.map_cons, List.sum_cons]
  unfold lambdaRes calcLambda
  rw [hS, if_neg hd, hO]
  simp only [Except.ok.injEq]
  rw [sub_eq_zero, div_eq_iff hd, eq_div_iff hx]
  constructor
  · intro h
    field_simp at h
    linear_combination h
  · intro h
    field_simp
    linear_combination h

/-- C115: the thermal input is the heating value of the fuels supplied, as far as they are burnt. -/
theorem C115_thermal_input {d : CombData F K} {inl : List (CombStream F K)} {out : CombStream F K} {spec : Option K}
    {fl : Finset F} (h : Spec.Burnt d inl out spec fl) :
    combTi d inl out =
      (1 - Spec.unburnt d inl) * ∑ f ∈ d.fuels, (inl.map (fun i => i.m * i.x f)).sum * d.LHV f := by
  unfold combTi
  rw [Finset.mul_sum]
  refine Finset.sum_congr rfl (fun f hf => ?_)
  have h1 := h.fuel_out hf
  have hM := h.data.Mf f hf
  rw [nIn_eq, ← mul_div_assoc, div_left_inj' hM] at h1
  rw [h1]
  ring

/-- C115: with enough air the specified thermal input leaves exactly one fuel flow. -/
theorem C115_ti_partial {d : CombData F K} {air fuel out : CombStream F K} {spec : Option K} {fl : Finset F}
    (h : Spec.Burnt d [fuel, air] out spec fl) (h1 : 1 ≤ Spec.airRatio d [fuel, air])
    (hair : ∀ f ∈ d.fuels, air.x f = 0) (ti : K) (hl : ∑ f ∈ d.fuels, fuel.x f * d.LHV f ≠ 0) :
    combTi d [fuel, air] out = ti ↔ fuel.m = ti / ∑ f ∈ d.fuels, fuel.x f * d.LHV f := by
  have hu : Spec.unburnt d [fuel, air] = 0 := by
    unfold Spec.unburnt; rw [if_neg (not_lt.2 h1)]
  have e : ∑ f ∈ d.fuels, ([fuel, air].map (fun i => i.m * i.x f)).sum * d.LHV f
      = fuel.m * ∑ f ∈ d.fuels, fuel.x f * d.LHV f := by
    rw [Finset.mul_sum]
    refine Finset.sum_congr rfl (fun f hf => ?_)
    simp only [List.map_cons, List.map_nil, List.sum_cons, List.sum_nil, hair f hf]
    ring
  rw [C115_thermal_input h, hu, e, sub_zero, one_mul, eq_div_iff hl]

/-- C115 is false for the thermal input without enough air: for a single fuel it is fixed by the oxygen supplied, so
that it says nothing about the fuel flow. -/
theorem C115_ti_rich_false {d : CombData F K} {inl : List (CombStream F K)} {out : CombStream F K} {spec : Option K}
    {fl : Finset F} {g : F} (h : Spec.Burnt d inl out spec fl) (hg : d.fuels = {g}) (h1 : Spec.airRatio d inl < 1)
    (hs : Spec.supplied d inl g ≠ 0) :
    combTi d inl out = Spec.supplied d inl d.o2 * (d.M g * d.LHV g / (d.H g / 4 + d.C g)) := by
  have hgm : g ∈ d.fuels := by rw [hg]; exact Finset.mem_singleton_self g
  have hM := h.data.Mf g hgm
  have hdem := h.data.dem g hgm
  have hu : Spec.unburnt d inl = 1 - Spec.airRatio d inl := by unfold Spec.unburnt; rw [if_pos h1]
  have hx : (inl.map (fun i => i.m * i.x g)).sum = Spec.supplied d inl g * d.M g := by
    have := nIn_eq (d := d) (inl := inl) g
    have e : nIn d inl g = Spec.supplied d inl g := rfl
    rw [e] at this
    rw [this, div_mul_cancel₀ _ hM]
  have hD : Spec.oxygenDemand d inl = Spec.supplied d inl g * (d.H g / 4 + d.C g) := by
    unfold Spec.oxygenDemand Spec.fuelHydrogen Spec.fuelCarbon
    rw [hg, Finset.sum_singleton, Finset.sum_singleton]
    ring
  rw [C115_thermal_input h, hu, hg, Finset.sum_singleton, hx]
  unfold Spec.airRatio
  rw [hD]
  generalize hq : d.H g / 4 + d.C g = q at *
  field_simp
  ring

-- non-vacuity: the chamber with twice the air it needs, and the one with three quarters of it
example : lambdaRes exComb [exAir 40, exFuel] 2 = .ok 0 ∧ Spec.oxygenDemand exComb [exFuel] ≠ 0 ∧
    (∀ f ∈ exComb.fuels, (exAir 40).x f = 0) ∧ combTi exComb [exFuel, exAir 40] exFlue = 50 ∧
    (∑ f ∈ exComb.fuels, exFuel.x f * exComb.LHV f) = 50 := by
  refine ⟨?_, ?_, ?_, ?_, ?_⟩ <;> decide +kernel

example : combTi exComb [exFuel, exAir 15] exRich = 75 / 2 ∧ Spec.supplied exComb [exFuel, exAir 15] 0 ≠ 0 ∧
    Spec.supplied exComb [exFuel, exAir 15] 1 * (16 * 50 / 2) = 75 / 2 := by
  refine ⟨?_, ?_, ?_⟩ <;> decide +kernel

/-- The stream that solves the equations for 9/8 kg/s of fuel and 15 kg/s of air. -/
def exRich2 : CombStream (Fin 5) ℚ :=
  ⟨129 / 8, fun f => [3 / 8 * 8 / 129, 0, 33 / 32 * 8 / 129, 27 / 32 * 8 / 129, 12 * 8 / 129].getD f.val 0, 5, 1⟩

/-- C115 is false for the thermal input: with the same air two different fuel flows have the same thermal input. -/
theorem C115_two_fuel_flows_false :
    ∃ (d : CombData (Fin 5) ℚ) (fuel fuel' air out out' : CombStream (Fin 5) ℚ),
      Spec.Burnt d [fuel, air] out none Finset.univ ∧ Spec.Burnt d [fuel', air] out' none Finset.univ ∧
      combMassRes [fuel, air] out = 0 ∧ combMassRes [fuel', air] out' = 0 ∧ (∀ f, fuel.x f = fuel'.x f) ∧
      combTi d [fuel, air] out = combTi d [fuel', air] out' ∧ fuel.m < fuel'.m := by
  refine ⟨exComb, exFuel, { exFuel with m := 9 / 8 }, exAir 15, exRich, exRich2, ⟨exComb_ok, ?_, ?_, ?_, ?_, ?_, ?_⟩,
    ⟨exComb_ok, ?_, ?_, ?_, ?_, ?_, ?_⟩, ?_, ?_, ?_, ?_, ?_⟩ <;> decide +kernel

end Tespy
