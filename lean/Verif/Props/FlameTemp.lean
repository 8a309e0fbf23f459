import Verif.Props.CombSpec
import Mathlib.Tactic.Linarith
import Mathlib.Tactic.NormNum

/-!
C115: the outlet state of a combustion chamber with enough air.
-/
namespace Tespy

variable {F K : Type} [DecidableEq F] [Field K] [LinearOrder K] [IsStrictOrderedRing K]

/-- Enthalpy of a stream above the reference state. -/
def Spec.above (c : CombStream F K) : K := c.h - c.href

/-- Heating value of the fuels in one kilogram of a stream. -/
def Spec.heatingValue (d : CombData F K) (c : CombStream F K) : K := ∑ f ∈ d.fuels, c.x f * d.LHV f

/-- A solved chamber of efficiency `eta` with one stream of fuel, one of air without fuels, and at least the air it
needs. -/
structure Spec.Lean (d : CombData F K) (fuel air out : CombStream F K) (spec : Option K) (fl : Finset F) (eta : K) :
    Prop where
  burnt : Spec.Burnt d [fuel, air] out spec fl
  enough : 1 ≤ Spec.airRatio d [fuel, air]
  clean : ∀ f ∈ d.fuels, air.x f = 0
  mass : combMassRes [fuel, air] out = 0
  energy : combEnergyRes d [fuel, air] out eta = 0

/-- C115: what leaves a chamber with enough air is what enters, and the heating value of the fuel reduced by the
efficiency. -/
theorem C115_outlet {d : CombData F K} {fuel air out : CombStream F K} {spec : Option K} {fl : Finset F} {eta : K}
    (h : Spec.Lean d fuel air out spec fl eta) :
    (fuel.m + air.m) * Spec.above out =
      fuel.m * Spec.above fuel + air.m * Spec.above air + eta * (fuel.m * Spec.heatingValue d fuel) := by
  have hu : Spec.unburnt d [fuel, air] = 0 := by
    unfold Spec.unburnt; rw [if_neg (not_lt.2 h.enough)]
  have e : ∑ f ∈ d.fuels, ([fuel, air].map (fun i => i.m * i.x f)).sum * d.LHV f
      = fuel.m * ∑ f ∈ d.fuels, fuel.x f * d.LHV f := by
    rw [Finset.mul_sum]
    refine Finset.sum_congr rfl (fun f hf => ?_)
    simp only [List.map_cons, List.map_nil, List.sum_cons, List.sum_nil, h.clean f hf]
    ring
  have hti : combTi d [fuel, air] out = fuel.m * Spec.heatingValue d fuel := by
    rw [C115_thermal_input h.burnt, hu, e, sub_zero, one_mul]
    rfl
  have hm := h.mass
  have he := h.energy
  unfold combEnergyRes at he
  rw [hti] at he
  unfold combMassRes at hm
  simp only [List.map_cons, List.map_nil, List.sum_cons, List.sum_nil, add_zero] at hm he
  unfold Spec.above
  linear_combination (out.h - out.href) * hm - he

/-- C115: more air cools the outlet, as long as the air is colder than the outlet. -/
theorem C115_more_air {d : CombData F K} {fuel air out air' out' : CombStream F K} {spec spec' : Option K}
    {fl fl' : Finset F} {eta : K} (h : Spec.Lean d fuel air out spec fl eta)
    (h' : Spec.Lean d fuel air' out' spec' fl' eta) (hf : 0 ≤ fuel.m) (hm : 0 < air.m) (hlt : air.m < air'.m)
    (ha : Spec.above air' = Spec.above air) (hc : Spec.above air < Spec.above out) :
    Spec.above out' < Spec.above out ∧ Spec.above air < Spec.above out' := by
  have e := C115_outlet h
  have e' := C115_outlet h'
  rw [ha] at e'
  have hp : 0 < fuel.m + air'.m := by linarith
  have hp0 : 0 < fuel.m + air.m := by linarith
  have hd : (fuel.m + air'.m) * (Spec.above out - Spec.above out')
      = (air'.m - air.m) * (Spec.above out - Spec.above air) := by linear_combination e - e'
  have hd2 : (fuel.m + air'.m) * (Spec.above out' - Spec.above air)
      = (fuel.m + air.m) * (Spec.above out - Spec.above air) := by linear_combination e' - e
  have h1 : 0 < (fuel.m + air'.m) * (Spec.above out - Spec.above out') := by
    rw [hd]; exact mul_pos (by linarith) (by linarith)
  have h2 : 0 < (fuel.m + air'.m) * (Spec.above out' - Spec.above air) := by
    rw [hd2]; exact mul_pos hp0 (by linarith)
  have h3 := (mul_pos_iff_of_pos_left hp).1 h1
  have h4 := (mul_pos_iff_of_pos_left hp).1 h2
  exact ⟨by linarith, by linarith⟩

/-- C115: a higher efficiency leaves a hotter outlet, and outlet and inlets determine the efficiency. -/
theorem C115_efficiency {d : CombData F K} {fuel air out out' : CombStream F K} {spec spec' : Option K}
    {fl fl' : Finset F} {eta eta' : K} (h : Spec.Lean d fuel air out spec fl eta)
    (h' : Spec.Lean d fuel air out' spec' fl' eta') (hf : 0 < fuel.m) (hm : 0 ≤ air.m)
    (hv : 0 < Spec.heatingValue d fuel) : eta < eta' ↔ Spec.above out < Spec.above out' := by
  have e := C115_outlet h
  have e' := C115_outlet h'
  have hp : 0 < fuel.m + air.m := by linarith
  have hq : 0 < fuel.m * Spec.heatingValue d fuel := mul_pos hf hv
  have hd : (fuel.m + air.m) * (Spec.above out' - Spec.above out)
      = fuel.m * Spec.heatingValue d fuel * (eta' - eta) := by linear_combination e' - e
  rw [← sub_pos, ← mul_pos_iff_of_pos_left hq, ← hd, mul_pos_iff_of_pos_left hp, sub_pos]

-- non-vacuity: methane with twice and with four times the air it needs, all energy with the flue gas
/-- Flue gas of 1 kg/s methane with 40 kg/s air in an adiabatic chamber. -/
def exHot : CombStream (Fin 5) ℚ := { exFlue with h := 92 / 41, href := 0 }
/-- Flue gas of 1 kg/s methane with 80 kg/s air in an adiabatic chamber. -/
def exMild : CombStream (Fin 5) ℚ :=
  ⟨81, fun f => [0, 12 / 81, 11 / 4 / 81, 9 / 4 / 81, 64 / 81].getD f.val 0, 132 / 81, 0⟩

example : Spec.Lean exComb exFuel (exAir 40) exHot none Finset.univ 1 ∧
    Spec.Lean exComb exFuel (exAir 80) exMild none Finset.univ 1 ∧
    Spec.above (exAir 80) = Spec.above (exAir 40) ∧ Spec.above (exAir 40) < Spec.above exHot ∧
    0 < Spec.heatingValue exComb exFuel := by
  refine ⟨⟨⟨exComb_ok, ?_, ?_, ?_, ?_, ?_, ?_⟩, ?_, ?_, ?_, ?_⟩,
    ⟨⟨exComb_ok, ?_, ?_, ?_, ?_, ?_, ?_⟩, ?_, ?_, ?_, ?_⟩, ?_, ?_, ?_⟩ <;> decide +kernel

end Tespy
