import Verif.Model.Reactors
import Verif.Props.Engine
/-!
C83: fuel cells and water electrolyzers.
-/
namespace Tespy

namespace Spec

section
variable {K : Type} [Field K]

/-- Enthalpy flow of a substance with the specific formation enthalpy `hf` (J/kg at 25 °C, 1 bar). -/
def RStream.enthalpy (r : RStream K) (hf : K) : K := r.m * (hf + (r.h - r.href))

/-- Molar mass of water from those of oxygen and hydrogen: 2 H₂ + O₂ → 2 H₂O. -/
def molarWater (MO2 MH2 : K) : K := (MO2 + 2 * MH2) / 2

/-- Specific formation enthalpy of liquid water: -286 kJ/mol. -/
def formWater (MO2 MH2 : K) : K := -286000 / molarWater MO2 MH2

/-- First law for an electrolyzer which consumes the power `power`; hydrogen and oxygen are elements (formation
enthalpy zero). -/
def ElectrolyzerFirstLaw (MO2 : K) (v : ReactorVals K) (power : K) : Prop :=
  power + RStream.enthalpy v.water (formWater MO2 v.MH2) + v.loop.m * v.loop.hIn
    = RStream.enthalpy v.oxygen 0 + RStream.enthalpy v.hydrogen 0 + v.loop.m * v.loop.hOut

/-- First law for a fuel cell which delivers the power `power`. -/
def FuelCellFirstLaw (MO2 : K) (v : ReactorVals K) (power : K) : Prop :=
  RStream.enthalpy v.oxygen 0 + RStream.enthalpy v.hydrogen 0 + v.loop.m * v.loop.hIn
    = power + RStream.enthalpy v.water (formWater MO2 v.MH2) + v.loop.m * v.loop.hOut

/-- The entries `L` which `bus_deriv` subtracts for a component add up to the partial derivatives of its bus
value with respect to all variables. -/
def IsBusDeriv (f : EqState ℝ → ℝ) (s : EqState ℝ) (L : List (Var × ℝ)) : Prop :=
  ∀ v, s.isVar v = true →
    HasDerivAt (fun t => f (s.put v t)) ((L.map (fun e => if e.1 = v then e.2 else 0)).sum) (s.val v)

end
end Spec

section
variable {K : Type} [Field K] [LinearOrder K] [IsStrictOrderedRing K]

/-! ### electrolyzer -/

theorem reaction_energy (MO2 MH2 mw mg : K) (hO : 0 < MO2) (hH : 0 < MH2)
    (h : (1 - MO2 / (MO2 + 2 * MH2)) * mw - mg = 0) :
    mw * Spec.formWater MO2 MH2 = -(mg * (286000 / MH2)) := by
  have h1 : MO2 + 2 * MH2 ≠ 0 := by positivity
  have h2 : MH2 ≠ 0 := hH.ne'
  have hg : mg = (1 - MO2 / (MO2 + 2 * MH2)) * mw := by linear_combination -h
  rw [hg, Spec.formWater, Spec.molarWater]
  field_simp
  ring

theorem elecE0_eq (M : K) (hM : 0 < M) : elecE0 M = 286000 / M := by
  have := hM.ne'
  unfold elecE0
  field_simp
  ring

theorem cellE0_eq (M : K) (hM : 0 < M) : cellE0 M = -(286000 / M) := by
  have := hM.ne'
  unfold cellE0
  field_simp
  ring

/-- C83 (electrolyzer, first law): if the mass flow equations hold, the energy balance equation holds exactly
if energy is conserved, with the power `P` as input and formation enthalpies of the substances. -/
theorem C83_elec_energy (MO2 : K) (v : ReactorVals K) (hO : 0 < MO2) (hH : 0 < v.MH2)
    (hm : elecMassRes MO2 v = (0, 0)) :
    elecEnergyRes v = 0 ↔ Spec.ElectrolyzerFirstLaw MO2 v v.P := by
  have h2 := reaction_energy MO2 v.MH2 v.water.m v.hydrogen.m hO hH (congrArg Prod.snd hm)
  unfold Spec.ElectrolyzerFirstLaw Spec.RStream.enthalpy elecEnergyRes elecCalcP
  rw [elecE0_eq _ hH]
  constructor <;> intro h
  · linear_combination h + h2
  · linear_combination h - h2

/-- C83 (electrolyzer, reported values): a specified efficiency, specific energy or heat is reported as
specified, exactly if its equation is satisfied. -/
theorem C83_elec_reported (v : ReactorVals K) (hm : v.hydrogen.m ≠ 0) (hM : 0 < v.MH2) (hP : v.P ≠ 0) :
    (∀ x, (elecReport v).eta = x ↔ elecEtaRes v x = 0)
    ∧ (∀ x, (elecReport v).e = x ↔ elecSpecRes v x = 0)
    ∧ (∀ x, (elecReport v).Q = x ↔ elecHeatRes v x = 0)
    ∧ (elecReport v).eta = v.hydrogen.m * (286000 / v.MH2) / v.P := by
  have he : (elecReport v).eta = v.hydrogen.m * elecE0 v.MH2 / v.P := by
    change elecE0 v.MH2 / (v.P / v.hydrogen.m) = _
    field_simp
  refine ⟨fun x => ?_, fun x => ?_, fun x => ?_, by rw [he, elecE0_eq _ hM]⟩
  · rw [he, div_eq_iff hP, elecEtaRes]
    constructor <;> intro h <;> linear_combination -h
  · change v.P / v.hydrogen.m = x ↔ _
    rw [div_eq_iff hm, elecSpecRes]
    constructor <;> intro h <;> linear_combination h
  · change -v.loop.m * (v.loop.hOut - v.loop.hIn) = x ↔ _
    rw [elecHeatRes]
    constructor <;> intro h <;> linear_combination -h

/-- C83 (electrolyzer, characteristic): with an efficiency characteristic which can be evaluated to `f ≠ 0` at the relative
hydrogen mass flow, the equation is satisfied exactly if the reported efficiency is `f` times
that of the design case. Without hydrogen production `ValueError` is raised. -/
theorem C83_elec_char (v : ReactorVals K) (etaD mD f : K) (char : K → PyRes K)
    (hc : char (v.hydrogen.m / mD) = .ok f) (hf : f ≠ 0) (he : etaD ≠ 0) (hD : mD ≠ 0) (hP : v.P ≠ 0) :
    (v.hydrogen.m ≠ 0 → (elecCharRes v etaD mD char = .ok 0 ↔ (elecReport v).eta = etaD * f))
    ∧ (v.hydrogen.m = 0 → elecCharRes v etaD mD char = .error .valueError) := by
  constructor
  · intro hm
    have hr : (elecReport v).eta = v.hydrogen.m * elecE0 v.MH2 / v.P := by
      change elecE0 v.MH2 / (v.P / v.hydrogen.m) = _
      field_simp
    have hx : v.hydrogen.m / mD ≠ 0 := div_ne_zero hm hD
    have hef : etaD * f ≠ 0 := mul_ne_zero he hf
    simp only [elecCharRes, if_neg hx, hc, hr, Except.ok.injEq]
    rw [sub_eq_zero, eq_div_iff hef, div_eq_iff hP]
    constructor <;> intro h <;> linear_combination -h
  · intro hm
    simp [elecCharRes, hm]

/-- C83 (electrolyzer, busses): the power bus receives the power, the heat bus the heat as reported; other
parameters raise `ValueError`. -/
theorem C83_elec_bus (v : ReactorVals K) (h : elecEnergyRes v = 0) :
    elecBus v "P" = .ok v.P ∧ elecBus v "Q" = .ok (elecReport v).Q
    ∧ ∀ p, p ≠ "P" → p ≠ "Q" → elecBus v p = .error .valueError := by
  refine ⟨?_, rfl, fun p h1 h2 => by simp [elecBus, h1, h2]⟩
  have : elecCalcP v = v.P := by unfold elecEnergyRes at h; linear_combination -h
  rw [← this]; rfl

/-! ### fuel cell -/

/-- C83 (fuel cell, what the energy balance says): it is the first law for a cell which delivers the power
`+P`. Full statement: for the delivered power `-P` (negative `P` is power output, as the bounds and the
efficiency have it); false, see `C83_cell_energy_false`. -/
theorem C83_cell_energy_partial (MO2 : K) (v : ReactorVals K) (hO : 0 < MO2) (hH : 0 < v.MH2)
    (hm : cellMassRes MO2 v = (0, 0)) :
    cellEnergyRes v = 0 ↔ Spec.FuelCellFirstLaw MO2 v v.P := by
  have h2 := reaction_energy MO2 v.MH2 v.water.m v.hydrogen.m hO hH (congrArg Prod.snd hm)
  unfold Spec.FuelCellFirstLaw Spec.RStream.enthalpy cellEnergyRes cellCalcP
  rw [cellE0_eq _ hH]
  constructor <;> intro h
  · linear_combination -h - h2
  · linear_combination -h - h2

/-- C83 is false for fuel cells: take any cell whose mass flow, energy and efficiency equations are satisfied, with
hydrogen supply and a positive efficiency. Then `P` is negative (power output), energy is not conserved,
and heat and power delivered exceed what the first law allows by twice the power: the cell delivers
the heat `(1 + eta)` times the energy of the hydrogen in addition to its power. -/
theorem C83_cell_energy_false (MO2 : K) (v : ReactorVals K) (eta : K) (hO : 0 < MO2) (hH : 0 < v.MH2)
    (hm : cellMassRes MO2 v = (0, 0)) (hE : cellEnergyRes v = 0) (heta : cellEtaRes v eta = 0)
    (hg : 0 < v.hydrogen.m) (h0 : 0 < eta) :
    v.P < 0 ∧ (cellReport v).eta = eta ∧ ¬ Spec.FuelCellFirstLaw MO2 v (-v.P)
    ∧ v.loop.m * (v.loop.hOut - v.loop.hIn)
      = (1 + eta) * (v.hydrogen.m * (286000 / v.MH2))
        + v.hydrogen.m * (v.hydrogen.h - v.hydrogen.href) + v.oxygen.m * (v.oxygen.h - v.oxygen.href)
        - v.water.m * (v.water.h - v.water.href) := by
  have he := cellE0_eq v.MH2 hH
  have hq : 0 < 286000 / v.MH2 := div_pos (by norm_num) hH
  have hP : v.P = -(eta * (v.hydrogen.m * (286000 / v.MH2))) := by
    unfold cellEtaRes at heta
    rw [he] at heta
    linear_combination heta
  have hneg : v.P < 0 := by
    rw [hP]
    exact neg_neg_of_pos (mul_pos h0 (mul_pos hg hq))
  refine ⟨hneg, ?_, ?_, ?_⟩
  · change v.P / v.hydrogen.m / cellE0 v.MH2 = eta
    have hne : v.hydrogen.m ≠ 0 := hg.ne'
    have hne' : cellE0 v.MH2 ≠ 0 := by rw [he]; exact (neg_neg_of_pos hq).ne
    rw [div_eq_iff hne', div_eq_iff hne]
    unfold cellEtaRes at heta
    linear_combination heta
  · intro hF
    have hF' := (C83_cell_energy_partial MO2 v hO hH hm).mp hE
    unfold Spec.FuelCellFirstLaw at hF hF'
    have : v.P = 0 := by linear_combination (hF - hF') / 2
    exact hneg.ne this
  · unfold cellEnergyRes cellCalcP at hE
    rw [he] at hE
    linear_combination hE - hP

/-- C83 (fuel cell, sign): a cell whose energy balance is satisfied conserves energy with the delivered power `-P` only
if it delivers no power. -/
theorem C83_cell_no_power (MO2 : K) (v : ReactorVals K) (hO : 0 < MO2) (hH : 0 < v.MH2)
    (hm : cellMassRes MO2 v = (0, 0)) (hE : cellEnergyRes v = 0) :
    Spec.FuelCellFirstLaw MO2 v (-v.P) ↔ v.P = 0 := by
  have hF' := (C83_cell_energy_partial MO2 v hO hH hm).mp hE
  unfold Spec.FuelCellFirstLaw at hF' ⊢
  constructor
  · intro hF
    linear_combination (hF - hF') / 2
  · intro h
    linear_combination hF' + 2 * h

/-- C83 (fuel cell, reported values): a specified efficiency, specific energy or heat is reported as specified,
exactly if its equation is satisfied. -/
theorem C83_cell_reported (v : ReactorVals K) (hm : v.hydrogen.m ≠ 0) (hM : 0 < v.MH2) :
    (∀ x, (cellReport v).eta = x ↔ cellEtaRes v x = 0)
    ∧ (∀ x, (cellReport v).e = x ↔ cellSpecRes v x = 0)
    ∧ (∀ x, (cellReport v).Q = x ↔ cellHeatRes v x = 0) := by
  have he : cellE0 v.MH2 ≠ 0 := by
    rw [cellE0_eq _ hM]
    exact (neg_neg_of_pos (div_pos (by norm_num) hM)).ne
  refine ⟨fun x => ?_, fun x => ?_, fun x => ?_⟩
  · change v.P / v.hydrogen.m / cellE0 v.MH2 = x ↔ _
    rw [div_eq_iff he, div_eq_iff hm, cellEtaRes]
    constructor <;> intro h <;> linear_combination h
  · change v.P / v.hydrogen.m = x ↔ _
    rw [div_eq_iff hm, cellSpecRes]
    constructor <;> intro h <;> linear_combination h
  · change -v.loop.m * (v.loop.hOut - v.loop.hIn) = x ↔ _
    rw [cellHeatRes]
    constructor <;> intro h <;> linear_combination -h

omit [LinearOrder K] [IsStrictOrderedRing K] in
/-- C83 is false for fuel cells on busses: whatever its power and heat, and for every parameter, a fuel cell
contributes nothing to a bus; a bus with a specified value raises `AttributeError`. -/
theorem C83_cell_bus_false (v : ReactorVals K) (p : String) :
    cellBus v p = .ok 0 ∧ (v.P ≠ 0 → cellBus v p ≠ .ok v.P)
    ∧ (cellBusDeriv : PyRes (List (Var × K))) = .error .attributeError := by
  refine ⟨rfl, fun h h' => ?_, rfl⟩
  injection h' with h'
  exact h h'.symm

end

/-- A solved electrolyzer: molar masses 32 and 2 g/mol, 9 kg/s of water at 1 000 J/kg above the reference state,
oxygen and hydrogen at the reference state, cooling by 10 kg/s. -/
def elecVals : ReactorVals ℚ where
  loop := ⟨10, 3, 2, 100, 1100⟩
  water := ⟨9, 1500, 500⟩
  oxygen := ⟨8, 200, 200⟩
  hydrogen := ⟨1, 300, 300⟩
  P := 143000000 + 1000
  MH2 := 2 / 1000

example : elecMassRes (32 / 1000) elecVals = (0, 0) ∧ elecEnergyRes elecVals = 0 ∧ elecVals.P ≠ 0
    ∧ elecVals.hydrogen.m ≠ 0 := by
  refine ⟨?_, ?_, ?_, ?_⟩ <;> norm_num [elecMassRes, elecVals, elecEnergyRes, elecCalcP, elecE0]

/-- The fuel cell of the documentation, scaled: efficiency 0.45, hydrogen at the reference state. -/
def cellVals : ReactorVals ℚ where
  loop := ⟨1000, 3, 2, 0, 207350⟩
  water := ⟨9, 500, 500⟩
  oxygen := ⟨8, 200, 200⟩
  hydrogen := ⟨1, 300, 300⟩
  P := -64350000
  MH2 := 2 / 1000

example : cellMassRes (32 / 1000) cellVals = (0, 0) ∧ cellEnergyRes cellVals = 0
    ∧ cellEtaRes cellVals (45 / 100) = 0 ∧ 0 < cellVals.hydrogen.m := by
  refine ⟨?_, ?_, ?_, ?_⟩ <;>
    norm_num [cellMassRes, cellVals, cellEnergyRes, cellCalcP, cellE0, cellEtaRes]

/-- `C83_elec_char` applies: a characteristic with value 0.9 everywhere. -/
example : (fun _ : ℚ => (.ok (9 / 10) : PyRes ℚ)) (elecVals.hydrogen.m / 2) = .ok (9 / 10)
    ∧ (9 / 10 : ℚ) ≠ 0 ∧ elecVals.P ≠ 0 ∧ elecVals.hydrogen.m ≠ 0 := by
  refine ⟨rfl, ?_, ?_, ?_⟩ <;> norm_num [elecVals]

/-! ### Derivatives -/

/-- the part of a stream of the reaction -/
theorem stream_row (hr : (String → ℝ) → ℝ) (e : ℝ) (c : Port) (s : EqState ℝ) (h : Spec.FixedRef hr s c) :
    RowC s (fun s => s.mv c * (s.hv c - hr (s.xv c) + e))
      [(Var.m c.m, s.hv c - hr (s.xv c) + e), (Var.h c.h, s.mv c)] := by
  have h1 := RowC.mul s (.m c.m) (.h c.h) (by simp)
  have h2 := (RowC.val s (.m c.m)).smul (-(hr (s.xv c)) + e)
  refine RowC.congr (h1.add h2) (fun v hv t => ?_) (fun v _ => ?_)
  · simp only [h v hv t, EqState.mv, EqState.hv]
    ring
  · simp only [scaleL, List.map_cons, List.map_nil, EqState.hv, EqState.mv, contrib_append, contrib_cons,
      contrib_nil]
    split_ifs <;> ring

/-- parts of `calc_P` of the electrolyzer -/
theorem elecCalcP_sum (hr : (String → ℝ) → ℝ) (M : ℝ) (q : ReactorPorts) (s : EqState ℝ) :
    elecCalcP (reactorOf hr M s q)
      = (-1) * (s.mv q.w * (s.hv q.w - hr (s.xv q.w) + 0)) + s.mv q.ci * (s.hv q.co - s.hv q.ci)
        + s.mv q.o * (s.hv q.o - hr (s.xv q.o) + 0)
        + s.mv q.g * (s.hv q.g - hr (s.xv q.g) + elecE0 M) := by
  simp only [elecCalcP, reactorOf, loopOf]
  ring

/-- partial derivatives of `calc_P` of the electrolyzer -/
noncomputable def elecList (hr : (String → ℝ) → ℝ) (M : ℝ) (q : ReactorPorts) (s : EqState ℝ) :
    List (Var × ℝ) :=
  scaleL (-1) [(Var.m q.w.m, s.hv q.w - hr (s.xv q.w) + 0), (Var.h q.w.h, s.mv q.w)]
  ++ [(Var.m q.ci.m, s.hv q.co), (Var.h q.co.h, s.mv q.ci), (Var.m q.ci.m, -(s.hv q.ci)),
    (Var.h q.ci.h, -(s.mv q.ci))]
  ++ [(Var.m q.o.m, s.hv q.o - hr (s.xv q.o) + 0), (Var.h q.o.h, s.mv q.o)]
  ++ [(Var.m q.g.m, s.hv q.g - hr (s.xv q.g) + elecE0 M), (Var.h q.g.h, s.mv q.g)]

/-- The reference enthalpies of the streams of the reaction do not depend on variables (their compositions are pure
and specified by the component). -/
structure Spec.ReactorRefs (hr : (String → ℝ) → ℝ) (s : EqState ℝ) (q : ReactorPorts) : Prop where
  w : Spec.FixedRef hr s q.w
  o : Spec.FixedRef hr s q.o
  g : Spec.FixedRef hr s q.g

theorem elec_row (hr : (String → ℝ) → ℝ) (M : ℝ) (q : ReactorPorts) (s : EqState ℝ)
    (h : Spec.ReactorRefs hr s q) :
    RowC s (fun s => elecCalcP (reactorOf hr M s q)) (elecList hr M q s) := by
  refine RowC.congr (((((stream_row hr 0 q.w s h.w).smul (-1)).add (loop_row s q.ci q.co)).add
    (stream_row hr 0 q.o s h.o)).add (stream_row hr (elecE0 M) q.g s h.g)) (fun v _ t => ?_) (fun v _ => rfl)
  exact elecCalcP_sum hr M q (s.put v t)

/-- parts of `calc_P` of the fuel cell -/
theorem cellCalcP_sum (hr : (String → ℝ) → ℝ) (M : ℝ) (q : ReactorPorts) (s : EqState ℝ) :
    cellCalcP (reactorOf hr M s q)
      = (-1) * (s.mv q.w * (s.hv q.w - hr (s.xv q.w) + 0)) + (-1) * (s.mv q.ci * (s.hv q.co - s.hv q.ci))
        + s.mv q.o * (s.hv q.o - hr (s.xv q.o) + 0)
        + s.mv q.g * (s.hv q.g - hr (s.xv q.g) + -(cellE0 M)) := by
  simp only [cellCalcP, reactorOf, loopOf]
  ring

/-- partial derivatives of `calc_P` of the fuel cell -/
noncomputable def cellList (hr : (String → ℝ) → ℝ) (M : ℝ) (q : ReactorPorts) (s : EqState ℝ) :
    List (Var × ℝ) :=
  scaleL (-1) [(Var.m q.w.m, s.hv q.w - hr (s.xv q.w) + 0), (Var.h q.w.h, s.mv q.w)]
  ++ scaleL (-1) [(Var.m q.ci.m, s.hv q.co), (Var.h q.co.h, s.mv q.ci), (Var.m q.ci.m, -(s.hv q.ci)),
    (Var.h q.ci.h, -(s.mv q.ci))]
  ++ [(Var.m q.o.m, s.hv q.o - hr (s.xv q.o) + 0), (Var.h q.o.h, s.mv q.o)]
  ++ [(Var.m q.g.m, s.hv q.g - hr (s.xv q.g) + -(cellE0 M)), (Var.h q.g.h, s.mv q.g)]

theorem cell_row (hr : (String → ℝ) → ℝ) (M : ℝ) (q : ReactorPorts) (s : EqState ℝ)
    (h : Spec.ReactorRefs hr s q) :
    RowC s (fun s => cellCalcP (reactorOf hr M s q)) (cellList hr M q s) := by
  refine RowC.congr (((((stream_row hr 0 q.w s h.w).smul (-1)).add ((loop_row s q.ci q.co).smul (-1))).add
    (stream_row hr 0 q.o s h.o)).add (stream_row hr (-(cellE0 M)) q.g s h.g)) (fun v _ t => ?_)
    (fun v _ => rfl)
  exact cellCalcP_sum hr M q (s.put v t)

/-- what is written for the electrolyzer -/
noncomputable def elecWritten (hr : (String → ℝ) → ℝ) (M : ℝ) (s : EqState ℝ) (q : ReactorPorts) :
    List (Var × ℝ) :=
  [(.m q.ci.m, s.hv q.ci - s.hv q.co), (.h q.ci.h, s.mv q.ci), (.m q.w.m, s.hv q.w - hr (s.xv q.w)),
    (.h q.w.h, s.mv q.w), (.h q.co.h, -(s.mv q.ci)), (.m q.o.m, -(s.hv q.o - hr (s.xv q.o))),
    (.h q.o.h, -(s.mv q.o)), (.m q.g.m, -(s.hv q.g - hr (s.xv q.g) + elecE0 M)), (.h q.g.h, -(s.mv q.g)),
    (.par "P", 1)]

/-- what is written for the fuel cell -/
noncomputable def cellWritten (hr : (String → ℝ) → ℝ) (M : ℝ) (s : EqState ℝ) (q : ReactorPorts) :
    List (Var × ℝ) :=
  [(.m q.ci.m, s.hv q.co - s.hv q.ci), (.h q.ci.h, -(s.mv q.ci)), (.m q.w.m, s.hv q.w - hr (s.xv q.w)),
    (.h q.w.h, s.mv q.w), (.h q.co.h, s.mv q.ci), (.m q.o.m, -(s.hv q.o - hr (s.xv q.o))),
    (.h q.o.h, -(s.mv q.o)), (.m q.g.m, -(s.hv q.g - hr (s.xv q.g) - cellE0 M)), (.h q.g.h, -(s.mv q.g)),
    (.par "P", 1)]

theorem elecEnergyD_wrs (hr : (String → ℝ) → ℝ) (M : ℝ) (s : EqState ℝ) (q : ReactorPorts) (k : ℕ) :
    elecEnergyD hr M s q k = wrs s k (elecWritten hr M s q) := by
  simp [elecEnergyD, elecWritten, wrs]

theorem cellEnergyD_wrs (hr : (String → ℝ) → ℝ) (M : ℝ) (s : EqState ℝ) (q : ReactorPorts) (k : ℕ) :
    cellEnergyD hr M s q k = wrs s k (cellWritten hr M s q) := by
  simp [cellEnergyD, cellWritten, wrs]

/-- 1 for equal variables, otherwise 0 -/
def sameVar (a b : Var) : ℝ := if a = b then 1 else 0

theorem contrib_cons_same (e : Var × ℝ) (L : List (Var × ℝ)) (v : Var) :
    contrib (e :: L) v = e.2 * sameVar e.1 v + contrib L v := by
  rw [contrib_cons, sameVar]
  split <;> simp

/-- The residual has the partial derivatives listed by the written entries, if those of the same variable
are added. -/
theorem elecWritten_row (hr : (String → ℝ) → ℝ) (M : ℝ) (q : ReactorPorts) (s : EqState ℝ)
    (h : Spec.ReactorRefs hr s q) :
    RowC s (fun s => elecEnergyRes (reactorOf hr M s q)) (elecWritten hr M s q) := by
  refine RowC.congr ((RowC.val s (.par "P")).add ((elec_row hr M q s h).smul (-1))) (fun v hv t => ?_)
    (fun v _ => ?_)
  · simp only [elecEnergyRes]
    simp only [reactorOf]
    ring
  · simp only [elecWritten, elecList, scaleL, List.map_cons, List.map_nil, List.cons_append, List.nil_append,
      contrib_append, contrib_cons_same, contrib_nil, List.map_append]
    ring

theorem cellWritten_row (hr : (String → ℝ) → ℝ) (M : ℝ) (q : ReactorPorts) (s : EqState ℝ)
    (h : Spec.ReactorRefs hr s q) :
    RowC s (fun s => cellEnergyRes (reactorOf hr M s q)) (cellWritten hr M s q) := by
  refine RowC.congr ((RowC.val s (.par "P")).add ((cell_row hr M q s h).smul (-1))) (fun v hv t => ?_)
    (fun v _ => ?_)
  · simp only [cellEnergyRes]
    simp only [reactorOf]
    ring
  · simp only [cellWritten, cellList, scaleL, List.map_cons, List.map_nil, List.cons_append, List.nil_append,
      contrib_append, contrib_cons_same, contrib_nil, List.map_append]
    ring


theorem reactor_nodup (q : ReactorPorts) (hm : DistinctM [q.ci, q.w, q.o, q.g])
    (hh : DistinctH [q.ci, q.co, q.w, q.o, q.g]) :
    [Var.m q.ci.m, .h q.ci.h, .m q.w.m, .h q.w.h, .h q.co.h, .m q.o.m, .h q.o.h, .m q.g.m, .h q.g.h,
      .par "P"].Nodup := by
  simp only [DistinctM, DistinctH, List.map_cons, List.map_nil, List.nodup_cons,
    List.mem_cons, List.not_mem_nil, or_false, not_or, List.nodup_nil, and_true,
    not_false_eq_true] at hm hh
  obtain ⟨⟨a1, a2, a3⟩, ⟨b1, b2⟩, c1⟩ := hm
  obtain ⟨⟨h1, h2, h3, h4⟩, ⟨h5, h6, h7⟩, ⟨h8, h9⟩, h10⟩ := hh
  have h5' := Ne.symm h5
  simp [a1, a2, a3, b1, b2, c1, h1, h2, h3, h4, h5', h6, h7, h8, h9, h10]

/-- C83 (electrolyzer, derivatives): the Jacobian row of the energy balance holds the partial derivatives for all variables
if cooling loop and streams of the reaction have mass flows of their own and no connection appears twice.
Full statement: for all electrolyzers; false if the cooling water is fed to the reaction, see
`C83_preheat_false`. -/
theorem C83_elec_derivative_partial (hr : (String → ℝ) → ℝ) (M : ℝ) (s : EqState ℝ)
    (hc : Spec.ColsInjective s) (q : ReactorPorts) (hm : DistinctM [q.ci, q.w, q.o, q.g])
    (hh : DistinctH [q.ci, q.co, q.w, q.o, q.g]) (h : Spec.ReactorRefs hr s q) :
    Spec.IsJacobian (fun s => [elecEnergyRes (reactorOf hr M s q)]) (fun s k => elecEnergyD hr M s q k) s := by
  refine isJacobian_of_row s hc (fun s => elecEnergyRes (reactorOf hr M s q)) _
    (elecWritten hr M s q) (elecEnergyD_wrs hr M s q) (fun v hv => ?_)
  rw [lastOf_contrib (elecWritten hr M s q) (reactor_nodup q hm hh)]
  exact elecWritten_row hr M q s h v hv

/-- C83 (fuel cell, derivatives): the same for fuel cells. -/
theorem C83_cell_derivative_partial (hr : (String → ℝ) → ℝ) (M : ℝ) (s : EqState ℝ)
    (hc : Spec.ColsInjective s) (q : ReactorPorts) (hm : DistinctM [q.ci, q.w, q.o, q.g])
    (hh : DistinctH [q.ci, q.co, q.w, q.o, q.g]) (h : Spec.ReactorRefs hr s q) :
    Spec.IsJacobian (fun s => [cellEnergyRes (reactorOf hr M s q)]) (fun s k => cellEnergyD hr M s q k) s := by
  refine isJacobian_of_row s hc (fun s => cellEnergyRes (reactorOf hr M s q)) _
    (cellWritten hr M s q) (cellEnergyD_wrs hr M s q) (fun v hv => ?_)
  rw [lastOf_contrib (cellWritten hr M s q) (reactor_nodup q hm hh)]
  exact cellWritten_row hr M q s h v hv

/-- C83 is false if the cooling water is fed to the reaction (the same mass flow passes the cooling loop and enters as
feed water): the entry for it lacks the heat of the cooling loop. -/
theorem C83_preheat_false (hr : (String → ℝ) → ℝ) (M : ℝ) (s : EqState ℝ) (hc : Spec.ColsInjective s)
    (q : ReactorPorts) (hm : q.w.m = q.ci.m) (ho : q.o.m ≠ q.ci.m) (hg : q.g.m ≠ q.ci.m)
    (h : Spec.ReactorRefs hr s q) (hv : s.isVar (.m q.ci.m) = true) (hne : s.hv q.co ≠ s.hv q.ci) :
    ¬ Spec.IsJacobian (fun s => [elecEnergyRes (reactorOf hr M s q)]) (fun s k => elecEnergyD hr M s q k) s := by
  intro hJ
  have h1 := (hJ 0).2 0 (by simp) (.m q.ci.m) hv
  have hd := elecWritten_row hr M q s h (.m q.ci.m) hv
  have he : entry (elecEnergyD hr M s q 0) (0 + 0) (s.col (.m q.ci.m)) = s.hv q.w - hr (s.xv q.w) := by
    rw [elecEnergyD_wrs]
    refine (entryFrom_wrs s hc 0 _ (.m q.ci.m) hv 0).trans ?_
    simp [elecWritten, lastOf, hm, ho, hg]
  rw [he] at h1
  have hu := h1.unique hd
  have hL : contrib (elecWritten hr M s q) (.m q.ci.m)
      = (s.hv q.ci - s.hv q.co) + (s.hv q.w - hr (s.xv q.w)) := by
    simp [elecWritten, contrib_cons, contrib_nil, hm, ho, hg]
  rw [hL] at hu
  exact hne (by linarith)

/-- C83 (heat, efficiency and specific energy): the Jacobian rows of these equations hold the partial derivatives, for
the specific energy also with respect to the specific energy as a variable of the system. -/
theorem C83_rows (hr : (String → ℝ) → ℝ) (M eta Q : ℝ) (s : EqState ℝ)
    (hc : Spec.ColsInjective s) (q : ReactorPorts) (hh : q.ci.h ≠ q.co.h) :
    Spec.IsJacobian (fun s => [cellHeatRes (reactorOf hr M s q) Q]) (fun s k => reactorHeatD s q k) s
    ∧ Spec.IsJacobian (fun s => [elecHeatRes (reactorOf hr M s q) Q]) (fun s k => reactorHeatD s q k) s
    ∧ Spec.IsJacobian (fun s => [cellEtaRes (reactorOf hr M s q) eta]) (fun s k => cellEtaD M eta s q k) s
    ∧ Spec.IsJacobian (fun s => [elecEtaRes (reactorOf hr M s q) eta]) (fun s k => elecEtaD M eta s q k) s
    ∧ Spec.IsJacobian (fun s => [cellSpecRes (reactorOf hr M s q) (s.val (.par "e"))])
        (fun s k => reactorSpecD s q k) s
    ∧ Spec.IsJacobian (fun s => [elecSpecRes (reactorOf hr M s q) (s.val (.par "e"))])
        (fun s k => reactorSpecD s q k) s := by
  have hheat : RowC s (fun s => s.mv q.ci * (s.hv q.co - s.hv q.ci) + Q)
      [(.m q.ci.m, s.hv q.co - s.hv q.ci), (.h q.ci.h, -(s.mv q.ci)), (.h q.co.h, s.mv q.ci)] := by
    have h0 : RowC s (fun _ => Q) [] := fun v _ => hasDerivAt_const _ Q
    refine RowC.congr ((loop_row s q.ci q.co).add h0) (fun v hv t => rfl) (fun v _ => ?_)
    simp only [List.append_nil, contrib_cons_same, contrib_nil]
    ring
  have hheat' : RowOK s (fun s => s.mv q.ci * (s.hv q.co - s.hv q.ci) + Q)
      [(.m q.ci.m, s.hv q.co - s.hv q.ci), (.h q.ci.h, -(s.mv q.ci)), (.h q.co.h, s.mv q.ci)] := by
    intro v hv
    rw [lastOf_contrib _ (by simp [hh])]
    exact hheat v hv
  have heta : ∀ a b : ℝ, RowOK s (fun s => b * s.val (.par "P") + a * s.val (.m q.g.m))
      [(.m q.g.m, a), (.par "P", b)] := by
    intro a b v hv
    rw [lastOf_contrib _ (by simp)]
    refine (RowC.congr (g := fun s => b * s.val (.par "P") + a * s.val (.m q.g.m))
      (((RowC.val s (.par "P")).smul b).add ((RowC.val s (.m q.g.m)).smul a))
      (fun v hv t => rfl) (fun v _ => ?_)) v hv
    simp only [scaleL, List.map_cons, List.map_nil, List.cons_append, List.nil_append, contrib_cons_same,
      contrib_nil]
    ring
  have hspec : RowOK s (fun s => s.val (.par "P") + (-1) * (s.val (.m q.g.m) * s.val (.par "e")))
      [(.m q.g.m, -(s.val (.par "e"))), (.par "P", 1), (.par "e", -(s.mv q.g))] := by
    intro v hv
    rw [lastOf_contrib _ (by simp)]
    refine (RowC.congr (g := fun s => s.val (.par "P") + (-1) * (s.val (.m q.g.m) * s.val (.par "e")))
      ((RowC.val s (.par "P")).add ((RowC.mul s (.m q.g.m) (.par "e") (by simp)).smul (-1)))
      (fun v hv t => rfl) (fun v _ => ?_)) v hv
    simp only [scaleL, List.map_cons, List.map_nil, List.cons_append, List.nil_append, contrib_cons_same,
      contrib_nil, EqState.mv]
    ring
  refine ⟨isJacobian_of_row s hc _ _ _ ?_ (RowOK.congr hheat' ?_ (fun _ _ => rfl)),
    isJacobian_of_row s hc _ _ _ ?_ (RowOK.congr hheat' ?_ (fun _ _ => rfl)),
    isJacobian_of_row s hc _ _ _ ?_ (RowOK.congr (heta (-eta * cellE0 M) 1) ?_ (fun _ _ => rfl)),
    isJacobian_of_row s hc _ _ _ ?_ (RowOK.congr (heta (-(elecE0 M)) eta) ?_ (fun _ _ => rfl)),
    isJacobian_of_row s hc _ _ _ ?_ (RowOK.congr hspec ?_ (fun _ _ => rfl)),
    isJacobian_of_row s hc _ _ _ ?_ (RowOK.congr hspec ?_ (fun _ _ => rfl))⟩
  · intro k; simp [reactorHeatD, wrs]
  · intro v _ t; simp only [cellHeatRes, reactorOf, loopOf]; ring
  · intro k; simp [reactorHeatD, wrs]
  · intro v _ t; simp only [elecHeatRes, reactorOf, loopOf]; ring
  · intro k; simp [cellEtaD, wrs]
  · intro v _ t; simp only [cellEtaRes, reactorOf, EqState.mv]; ring
  · intro k; simp [elecEtaD, wrs]
  · intro v _ t; simp only [elecEtaRes, reactorOf, EqState.mv]; ring
  · intro k; simp [reactorSpecD, wrs]
  · intro v _ t; simp only [cellSpecRes, reactorOf, EqState.mv]; ring
  · intro k; simp [reactorSpecD, wrs]
  · intro v _ t; simp only [elecSpecRes, reactorOf, EqState.mv]; ring

/-! ### Derivatives on busses -/

/-- `calc_P` and the heat are affine in every single mass flow, enthalpy and parameter. -/
theorem elec_aff (c : ℝ) (hr : (String → ℝ) → ℝ) (M : ℝ) (q : ReactorPorts) (s : EqState ℝ) (v : Var)
    (hv : ∀ j f, v ≠ .x j f) (param : String) : Aff s v (elecBusValue c hr M q param) := by
  have hxv : ∀ p t, (s.put v t).xv p = s.xv p :=
    fun p t => funext (fun f => put_val_ne _ _ _ _ (fun h => hv _ _ h.symm))
  have hst : ∀ (p : Port) (e : ℝ), Aff s v (fun s => s.mv p * (s.hv p - hr (s.xv p) + e)) := by
    intro p e
    by_cases h : Var.m p.m = v
    · obtain ⟨A, B, hAB⟩ := Aff.mul (Aff.val s v (.m p.m)) (g := fun s => s.hv p - hr (s.xv p) + e)
        (fun t => by simp only [hxv, EqState.hv, put_val_ne s (.h p.h) v t (by rw [← h]; simp)])
      exact ⟨A, B, fun t => hAB t⟩
    · obtain ⟨A, B, hAB⟩ := Aff.val s v (.h p.h)
      refine ⟨s.mv p * (A - hr (s.xv p) + e), s.mv p * B, fun t => ?_⟩
      simp only [hxv, EqState.mv, put_val_ne s (.m p.m) v t h, EqState.hv, hAB t]
      ring
  have hl : Aff s v (fun s => s.mv q.ci * (s.hv q.co - s.hv q.ci)) := by
    by_cases h : Var.m q.ci.m = v
    · obtain ⟨A, B, hAB⟩ := Aff.mul (Aff.val s v (.m q.ci.m)) (g := fun s => s.hv q.co - s.hv q.ci)
        (fun t => by
          simp only [EqState.hv, put_val_ne s (.h q.co.h) v t (by rw [← h]; simp),
            put_val_ne s (.h q.ci.h) v t (by rw [← h]; simp)])
      exact ⟨A, B, fun t => hAB t⟩
    · obtain ⟨A, B, hAB⟩ := Aff.val s v (.h q.co.h)
      obtain ⟨A', B', hAB'⟩ := Aff.val s v (.h q.ci.h)
      refine ⟨s.mv q.ci * (A - A'), s.mv q.ci * (B - B'), fun t => ?_⟩
      simp only [EqState.mv, put_val_ne s (.m q.ci.m) v t h, EqState.hv, hAB t, hAB' t]
      ring
  by_cases hP : param = "P"
  · subst hP
    obtain ⟨A1, B1, h1⟩ := hst q.w 0
    obtain ⟨A2, B2, h2⟩ := hl
    obtain ⟨A3, B3, h3⟩ := hst q.o 0
    obtain ⟨A4, B4, h4⟩ := hst q.g (elecE0 M)
    refine ⟨c * (-A1 + A2 + A3 + A4), c * (-B1 + B2 + B3 + B4), fun t => ?_⟩
    have : elecBusValue c hr M q "P" (s.put v t) = c * elecCalcP (reactorOf hr M (s.put v t) q) := rfl
    rw [this, elecCalcP_sum]
    dsimp only at h1 h2 h3 h4
    rw [h1, h2, h3, h4]
    ring
  · by_cases hQ : param = "Q"
    · subst hQ
      obtain ⟨A2, B2, h2⟩ := hl
      refine ⟨c * -A2, c * -B2, fun t => ?_⟩
      have : elecBusValue c hr M q "Q" (s.put v t)
          = c * -((s.put v t).mv q.ci * ((s.put v t).hv q.co - (s.put v t).hv q.ci)) := by
        change c * (-(s.put v t).mv q.ci * ((s.put v t).hv q.co - (s.put v t).hv q.ci)) = _
        ring
      rw [this]
      dsimp only at h2
      rw [h2]
      ring
    · refine ⟨0, 0, fun t => ?_⟩
      simp [elecBusValue, elecBus, hP, hQ]

theorem contrib_busSub_ne (f : EqState ℝ → ℝ) (s : EqState ℝ) (u v : Var) (δ : ℝ) (huv : u ≠ v) :
    contrib (busSub f s u δ) v = 0 := by
  unfold busSub
  split <;> simp [contrib_cons, contrib_nil, huv]

theorem contrib_busSub (f : EqState ℝ → ℝ) (s : EqState ℝ) (u v : Var) (δ b : ℝ) (hv : s.isVar v = true)
    (h : centralDiff f s v δ = b) : contrib (busSub f s u δ) v = if u = v then b else 0 := by
  unfold busSub
  by_cases huv : u = v
  · subst huv
    simp [hv, contrib_cons, contrib_nil, h]
  · split <;> simp [contrib_cons, contrib_nil, huv]

/-- C83 (electrolyzer, power bus): the entries for the power add up to the partial derivatives of the bus value,
for a constant efficiency of the bus, if cooling loop and streams of the reaction have mass flows
and enthalpies of their own. -/
theorem C83_bus_power_partial (c : ℝ) (hr : (String → ℝ) → ℝ) (M δm δh δP : ℝ) (hδm : δm ≠ 0) (hδh : δh ≠ 0)
    (hδP : δP ≠ 0) (s : EqState ℝ) (q : ReactorPorts) (hm : DistinctM [q.ci, q.w, q.o, q.g])
    (hh : DistinctH [q.ci, q.co, q.w, q.o, q.g]) (h : Spec.ReactorRefs hr s q) :
    ∃ L, elecBusDeriv c hr M δm δh δP s q "P" = .ok L
      ∧ Spec.IsBusDeriv (elecBusValue c hr M q "P") s L := by
  refine ⟨_, rfl, fun v hv => ?_⟩
  have hd : HasDerivAt (fun t => elecBusValue c hr M q "P" (s.put v t)) (c * contrib (elecList hr M q s) v)
      (s.val v) := (elec_row hr M q s h v hv).const_mul c
  change HasDerivAt _ (contrib _ v) _
  convert hd using 1
  have hcd : ∀ δ, δ ≠ 0 → (∀ j f, v ≠ .x j f) →
      centralDiff (elecBusValue c hr M q "P") s v δ = c * contrib (elecList hr M q s) v :=
    fun δ hδ hx => centralDiff_aff (elec_aff c hr M q s v hx "P") δ _ hδ hd
  simp only [DistinctM, DistinctH, List.map_cons, List.map_nil, List.nodup_cons,
    List.mem_cons, List.not_mem_nil, or_false, not_or, List.nodup_nil, and_true,
    not_false_eq_true] at hm hh
  obtain ⟨⟨a1, a2, a3⟩, ⟨b1, b2⟩, c1⟩ := hm
  obtain ⟨⟨h1, h2, h3, h4⟩, ⟨h5, h6, h7⟩, ⟨h8, h9⟩, h10⟩ := hh
  have n1 : q.ci ≠ q.co := fun e => h1 (by rw [e])
  have n2 : q.w ≠ q.co := fun e => h5 (by rw [e])
  have n3 : q.o ≠ q.co := fun e => h6 (by rw [e])
  have n4 : q.g ≠ q.co := fun e => h7 (by rw [e])
  simp only [List.flatMap_cons, List.flatMap_nil, List.append_nil, ne_eq, n1, n2, n3, n4, not_true_eq_false,
    not_false_eq_true, if_true, if_false, List.nil_append, contrib_append]
  have a1' := Ne.symm a1
  have a2' := Ne.symm a2
  have a3' := Ne.symm a3
  have b1' := Ne.symm b1
  have b2' := Ne.symm b2
  have c1' := Ne.symm c1
  have h1' := Ne.symm h1
  have h2' := Ne.symm h2
  have h3' := Ne.symm h3
  have h4' := Ne.symm h4
  have h5' := Ne.symm h5
  have h6' := Ne.symm h6
  have h7' := Ne.symm h7
  have h8' := Ne.symm h8
  have h9' := Ne.symm h9
  have h10' := Ne.symm h10
  have hz : ∀ u δ, u ≠ v → contrib (busSub (elecBusValue c hr M q "P") s u δ) v = 0 :=
    fun u δ hu => contrib_busSub_ne _ s u v δ hu
  cases v with
  | m j =>
    have hcd' := hcd δm hδm (by simp)
    simp only [contrib_busSub _ s (.m _) (.m j) δm _ hv hcd', hz (.h _) _ (by simp : Var.h _ ≠ .m j),
      hz (.par _) _ (by simp : Var.par _ ≠ .m j), Var.m.injEq]
    by_cases e1 : q.ci.m = j
    · subst e1; simp [a1, a2, a3, a1', a2', a3']
    by_cases e2 : q.w.m = j
    · subst e2; simp [a1, b1, b2, a1', b1', b2']
    by_cases e3 : q.o.m = j
    · subst e3; simp [a2, b1, c1, a2', b1', c1']
    by_cases e4 : q.g.m = j
    · subst e4; simp [a3, b2, c1, a3', b2', c1']
    simp [e1, e2, e3, e4, elecList, scaleL, contrib_append, contrib_cons, contrib_nil]
  | h j =>
    have hcd' := hcd δh hδh (by simp)
    simp only [contrib_busSub _ s (.h _) (.h j) δh _ hv hcd', hz (.m _) _ (by simp : Var.m _ ≠ .h j),
      hz (.par _) _ (by simp : Var.par _ ≠ .h j), Var.h.injEq]
    by_cases e1 : q.ci.h = j
    · subst e1; simp [h1, h2, h3, h4, h1', h2', h3', h4']
    by_cases e2 : q.w.h = j
    · subst e2; simp [h2, h5, h8, h9, h2', h5', h8', h9']
    by_cases e3 : q.o.h = j
    · subst e3; simp [h3, h6, h8, h10, h3', h6', h8', h10']
    by_cases e4 : q.g.h = j
    · subst e4; simp [h4, h7, h9, h10, h4', h7', h9', h10']
    by_cases e5 : q.co.h = j
    · subst e5; simp [h1, h5, h6, h7, h1', h5', h6', h7']
    simp [e1, e2, e3, e4, e5, elecList, scaleL, contrib_append, contrib_cons, contrib_nil]
  | p j =>
    simp only [hz (.m _) _ (by simp : Var.m _ ≠ .p j), hz (.h _) _ (by simp : Var.h _ ≠ .p j),
      hz (.par _) _ (by simp : Var.par _ ≠ .p j)]
    simp [elecList, scaleL, contrib_append, contrib_cons, contrib_nil]
  | x j f =>
    simp only [hz (.m _) _ (by simp : Var.m _ ≠ .x j f), hz (.h _) _ (by simp : Var.h _ ≠ .x j f),
      hz (.par _) _ (by simp : Var.par _ ≠ .x j f)]
    simp [elecList, scaleL, contrib_append, contrib_cons, contrib_nil]
  | par n =>
    have hcd' := hcd δP hδP (by simp)
    have h0 : c * contrib (elecList hr M q s) (.par n) = 0 := by
      simp [elecList, scaleL, contrib_append, contrib_cons, contrib_nil]
    rw [h0] at hcd' ⊢
    simp only [contrib_busSub _ s (.par _) (.par n) δP _ hv hcd', hz (.m _) _ (by simp : Var.m _ ≠ .par n),
      hz (.h _) _ (by simp : Var.h _ ≠ .par n)]
    simp

/-- C83 is false for the heat bus of electrolyzers: the entry for the enthalpy at the cooling outlet is twice the derivative, that for
the enthalpy at the cooling inlet is missing. -/
theorem C83_bus_heat_false (c : ℝ) (hr : (String → ℝ) → ℝ) (M δm δh δP : ℝ) (hδh : δh ≠ 0)
    (s : EqState ℝ) (q : ReactorPorts) (hh : q.ci.h ≠ q.co.h) (hc : c ≠ 0) (hm : s.mv q.ci ≠ 0)
    (hv : s.isVar (.h q.ci.h) = true ∨ s.isVar (.h q.co.h) = true) :
    ∃ L, elecBusDeriv c hr M δm δh δP s q "Q" = .ok L
      ∧ (s.isVar (.h q.co.h) = true → HasDerivAt (fun t => elecBusValue c hr M q "Q" (s.put (.h q.co.h) t))
          (-(c * s.mv q.ci)) (s.val (.h q.co.h)) ∧ contrib L (.h q.co.h) = 2 * -(c * s.mv q.ci))
      ∧ (s.isVar (.h q.ci.h) = true → HasDerivAt (fun t => elecBusValue c hr M q "Q" (s.put (.h q.ci.h) t))
          (c * s.mv q.ci) (s.val (.h q.ci.h)) ∧ contrib L (.h q.ci.h) = 0)
      ∧ ¬ Spec.IsBusDeriv (elecBusValue c hr M q "Q") s L := by
  have hval : ∀ v t, elecBusValue c hr M q "Q" (s.put v t)
      = -c * ((s.put v t).mv q.ci * ((s.put v t).hv q.co - (s.put v t).hv q.ci)) := by
    intro v t
    change c * (-(s.put v t).mv q.ci * ((s.put v t).hv q.co - (s.put v t).hv q.ci)) = _
    ring
  have hrow := (loop_row s q.ci q.co).smul (-c)
  have hd : ∀ v, s.isVar v = true → HasDerivAt (fun t => elecBusValue c hr M q "Q" (s.put v t))
      (contrib (scaleL (-c) [(Var.m q.ci.m, s.hv q.co), (Var.h q.co.h, s.mv q.ci), (Var.m q.ci.m, -(s.hv q.ci)),
        (Var.h q.ci.h, -(s.mv q.ci))]) v) (s.val v) := by
    intro v hv
    have := hrow v hv
    rwa [show (fun t => elecBusValue c hr M q "Q" (s.put v t)) = _ from funext (hval v)]
  have ho : s.isVar (.h q.co.h) = true → HasDerivAt (fun t => elecBusValue c hr M q "Q" (s.put (.h q.co.h) t))
          (-(c * s.mv q.ci)) (s.val (.h q.co.h)) := by
    intro h
    have := hd _ h
    simpa [scaleL, contrib_cons, contrib_nil, hh, Ne.symm hh] using this
  have hi : s.isVar (.h q.ci.h) = true → HasDerivAt (fun t => elecBusValue c hr M q "Q" (s.put (.h q.ci.h) t))
          (c * s.mv q.ci) (s.val (.h q.ci.h)) := by
    intro h
    have := hd _ h
    simpa [scaleL, contrib_cons, contrib_nil, hh, Ne.symm hh] using this
  have co : s.isVar (.h q.co.h) = true → contrib (busSub (elecBusValue c hr M q "Q") s (.m q.ci.m) δm
      ++ busSub (elecBusValue c hr M q "Q") s (.h q.co.h) δh
      ++ busSub (elecBusValue c hr M q "Q") s (.h q.co.h) δh) (.h q.co.h) = 2 * -(c * s.mv q.ci) := by
    intro h
    have hcd := centralDiff_aff (elec_aff c hr M q s (.h q.co.h) (by simp) "Q") δh _ hδh (ho h)
    rw [contrib_append, contrib_append, contrib_busSub_ne _ _ _ _ _ (by simp),
      contrib_busSub _ _ _ _ _ _ h hcd]
    simp only [if_true]
    ring
  have ci : contrib (busSub (elecBusValue c hr M q "Q") s (.m q.ci.m) δm
      ++ busSub (elecBusValue c hr M q "Q") s (.h q.co.h) δh
      ++ busSub (elecBusValue c hr M q "Q") s (.h q.co.h) δh) (.h q.ci.h) = 0 := by
    rw [contrib_append, contrib_append, contrib_busSub_ne _ _ _ _ _ (by simp),
      contrib_busSub_ne _ _ _ _ _ (by simpa using Ne.symm hh)]
    simp
  have hcm : c * s.mv q.ci ≠ 0 := mul_ne_zero hc hm
  refine ⟨_, rfl, fun h => ⟨ho h, co h⟩, fun h => ⟨hi h, ci⟩, fun hb => ?_⟩
  rcases hv with h | h
  · have := (hb _ h).unique (hi h)
    rw [show (List.map _ _).sum = _ from ci] at this
    exact hcm this.symm
  · have := (hb _ h).unique (ho h)
    rw [show (List.map _ _).sum = _ from co h] at this
    exact hcm (by linarith)

/-- C83 is false for the power bus if the cooling water is fed to the reaction: the derivative for the common mass flow is subtracted
twice. -/
theorem C83_bus_preheat_false (c : ℝ) (hr : (String → ℝ) → ℝ) (M δm δh δP : ℝ) (hδm : δm ≠ 0)
    (s : EqState ℝ) (q : ReactorPorts) (hm : q.w.m = q.ci.m) (ho : q.o.m ≠ q.ci.m) (hg : q.g.m ≠ q.ci.m)
    (hci : q.ci ≠ q.co) (hw : q.w ≠ q.co)
    (h : Spec.ReactorRefs hr s q) (hv : s.isVar (.m q.ci.m) = true) (hc : c ≠ 0)
    (hne : (s.hv q.co - s.hv q.ci) - (s.hv q.w - hr (s.xv q.w)) ≠ 0) :
    ∃ L b, elecBusDeriv c hr M δm δh δP s q "P" = .ok L
      ∧ HasDerivAt (fun t => elecBusValue c hr M q "P" (s.put (.m q.ci.m) t)) b (s.val (.m q.ci.m))
      ∧ b ≠ 0 ∧ contrib L (.m q.ci.m) = 2 * b ∧ ¬ Spec.IsBusDeriv (elecBusValue c hr M q "P") s L := by
  have hd : HasDerivAt (fun t => elecBusValue c hr M q "P" (s.put (.m q.ci.m) t))
      (c * contrib (elecList hr M q s) (.m q.ci.m)) (s.val (.m q.ci.m)) :=
    (elec_row hr M q s h (.m q.ci.m) hv).const_mul c
  have hL : contrib (elecList hr M q s) (.m q.ci.m)
      = (s.hv q.co - s.hv q.ci) - (s.hv q.w - hr (s.xv q.w)) := by
    simp [elecList, scaleL, contrib_append, contrib_cons, contrib_nil, hm, ho, hg]
    ring
  have hcd := centralDiff_aff (elec_aff c hr M q s (.m q.ci.m) (by simp) "P") δm _ hδm hd
  have hb : c * contrib (elecList hr M q s) (.m q.ci.m) ≠ 0 := by
    rw [hL]; exact mul_ne_zero hc hne
  have hz : ∀ u δ, u ≠ .m q.ci.m → contrib (busSub (elecBusValue c hr M q "P") s u δ) (.m q.ci.m) = 0 :=
    fun u δ hu => contrib_busSub_ne _ s u _ δ hu
  have hsum : contrib ([q.ci, q.w, q.co, q.o, q.g].flatMap (fun p =>
        (if p ≠ q.co then busSub (elecBusValue c hr M q "P") s (.m p.m) δm else [])
          ++ busSub (elecBusValue c hr M q "P") s (.h p.h) δh)
      ++ busSub (elecBusValue c hr M q "P") s (.par "P") δP) (.m q.ci.m)
      = 2 * (c * contrib (elecList hr M q s) (.m q.ci.m)) := by
    have ho' : contrib (if q.o ≠ q.co then busSub (elecBusValue c hr M q "P") s (.m q.o.m) δm else [])
        (.m q.ci.m) = 0 := by
      split
      · exact hz _ _ (by simpa using ho)
      · rfl
    have hg' : contrib (if q.g ≠ q.co then busSub (elecBusValue c hr M q "P") s (.m q.g.m) δm else [])
        (.m q.ci.m) = 0 := by
      split
      · exact hz _ _ (by simpa using hg)
      · rfl
    simp only [List.flatMap_cons, List.flatMap_nil, List.append_nil, contrib_append,
      hz (.h _) _ (by simp : Var.h _ ≠ .m q.ci.m), hz (.par _) _ (by simp : Var.par _ ≠ .m q.ci.m), ho', hg']
    simp only [ne_eq, hci, hw, not_true_eq_false, not_false_eq_true, if_true, if_false, contrib_nil,
      contrib_busSub _ s (.m _) (.m q.ci.m) δm _ hv hcd, hm]
    ring
  refine ⟨_, _, rfl, hd, hb, hsum, fun hbd => ?_⟩
  have := (hbd _ hv).unique hd
  rw [show (List.map _ _).sum = _ from hsum] at this
  exact hb (by linarith)

/-! ### examples -/

/-- connections of a reactor with separate streams -/
def reactorPorts : ReactorPorts := ⟨jp 1, ⟨1, 5, 5, 1⟩, jp 2, jp 3, jp 4⟩
/-- connections of an electrolyzer whose cooling water is fed to the reaction (`out1` leads to `in2` through another
component) -/
def preheatPorts : ReactorPorts := ⟨jp 1, ⟨1, 5, 5, 1⟩, ⟨1, 2, 2, 1⟩, jp 3, jp 4⟩

theorem reactorRefs_const (s : EqState ℝ) (q : ReactorPorts) : Spec.ReactorRefs (fun _ => 3) s q :=
  ⟨fun _ _ _ => rfl, fun _ _ _ => rfl, fun _ _ _ => rfl⟩

example := C83_elec_derivative_partial (fun _ => 3) 2 jacState jacState_cols reactorPorts
  (by simp [DistinctM, jp, reactorPorts]) (by simp [DistinctH, jp, reactorPorts]) (reactorRefs_const _ _)
example := C83_cell_derivative_partial (fun _ => 3) 2 jacState jacState_cols reactorPorts
  (by simp [DistinctM, jp, reactorPorts]) (by simp [DistinctH, jp, reactorPorts]) (reactorRefs_const _ _)
example := C83_preheat_false (fun _ => 3) 2 jacState jacState_cols preheatPorts rfl
  (by simp [jp, preheatPorts]) (by simp [jp, preheatPorts]) (reactorRefs_const _ _) rfl
  (by norm_num [EqState.hv, jacState, jp, preheatPorts])
example := C83_rows (fun _ => 3) 2 (1 / 2) 7 jacState jacState_cols reactorPorts (by simp [jp, reactorPorts])
example := C83_bus_power_partial (9 / 10) (fun _ => 3) 2 1 1 1 one_ne_zero one_ne_zero one_ne_zero jacState reactorPorts
  (by simp [DistinctM, jp, reactorPorts]) (by simp [DistinctH, jp, reactorPorts]) (reactorRefs_const _ _)
example := C83_bus_heat_false (9 / 10) (fun _ => 3) 2 1 1 1 one_ne_zero jacState reactorPorts
  (by simp [jp, reactorPorts]) (by norm_num) (by norm_num [EqState.mv, jacState, jp, reactorPorts]) (.inl rfl)
example := C83_bus_preheat_false (9 / 10) (fun _ => 3) 2 1 1 1 one_ne_zero jacState preheatPorts rfl
  (by simp [jp, preheatPorts]) (by simp [jp, preheatPorts]) (by simp [jp, preheatPorts])
  (by simp [preheatPorts]) (reactorRefs_const _ _) rfl (by norm_num)
  (by norm_num [EqState.hv, jacState, jp, preheatPorts])

end Tespy
