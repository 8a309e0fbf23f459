import Verif.Props.DocEqs

/-!
C111: combustion, reactors, nodes and connections.
-/
namespace Tespy

section combustion
variable {F K : Type} [DecidableEq F] [Field K] [LinearOrder K]

/-- The printed thermal input is the calculated one. -/
theorem docTi (d : CombData F K) (i1 i2 out : CombStream F K) : Doc.ti d i1 i2 out = combTi d [i1, i2] out := by
  unfold Doc.ti combTi
  apply Finset.sum_congr rfl
  intro f _
  simp only [List.map_cons, List.map_nil, List.sum_cons, List.sum_nil]
  ring

/-- The printed molar flow is the calculated one. -/
theorem docMolar (d : CombData F K) (i1 i2 : CombStream F K) (f : F) : Doc.molar d i1 i2 f = nIn d [i1, i2] f := by
  unfold Doc.molar nIn
  simp only [List.map_cons, List.map_nil, List.sum_cons, List.sum_nil]
  ring

theorem docMolarH (d : CombData F K) (i1 i2 : CombStream F K) : Doc.molarH d i1 i2 = nH d [i1, i2] := by
  unfold Doc.molarH nH
  exact Finset.sum_congr rfl (fun f _ => by rw [docMolar])

theorem docMolarC (d : CombData F K) (i1 i2 : CombStream F K) : Doc.molarC d i1 i2 = nC d [i1, i2] := by
  unfold Doc.molarC nC
  exact Finset.sum_congr rfl (fun f _ => by rw [docMolar])

/-- C111: mass and energy balance and thermal input of combustion chambers (adiabatic or diabatic), energy balance and
characteristic equations of combustion engines (with the heat flows `Q1 = -ṁ·Δh`, `Q2` of the cooling loops). -/
theorem C111_combustion (d : CombData F K) (i1 i2 out : CombStream F K) (v : K) (e : EngineVals F K)
    (he : e.inl = [i1, i2]) (ho : e.out = out) (ch : EngineChars K) :
    (Doc.combMass i1 i2 out ↔ combMassRes [i1, i2] out = 0) ∧
    (Doc.combEnergy d i1 i2 out ↔ combEnergyRes d [i1, i2] out 1 = 0) ∧
    (Doc.diabaticEnergy d i1 i2 out v ↔ combEnergyRes d [i1, i2] out v = 0) ∧
    (Doc.combTi d i1 i2 out v ↔ v - combTi d [i1, i2] out = 0) ∧
    (Doc.engineEnergy d i1 i2 out (-e.loop1.heat) (-e.loop2.heat) e.P e.Qloss ↔ engineEnergyRes d e = 0) ∧
    (Doc.enginePower d i1 i2 out e.P (ch.tiP e.load) ↔ enginePowerRes d ch e = 0) ∧
    (Doc.engineHeatChar d i1 i2 out e.loop1 (ch.q1 e.load) (ch.tiP e.load) ↔ engineHeat1Res d ch e = 0) ∧
    (Doc.engineHeatChar d i1 i2 out e.loop2 (ch.q2 e.load) (ch.tiP e.load) ↔ engineHeat2Res d ch e = 0) ∧
    (Doc.engineLoss d i1 i2 out e.Qloss (ch.qloss e.load) (ch.tiP e.load) ↔ engineLossRes d ch e = 0) := by
  refine ⟨docIff (Or.inl ?_), docIff (Or.inl ?_), docIff (Or.inl ?_), docIff (Or.inl ?_), docIff (Or.inl ?_),
    docIff (Or.inl ?_), docIff (Or.inl ?_), docIff (Or.inl ?_), docIff (Or.inl ?_)⟩
  · simp [combMassRes]
  · simp only [docTi, combEnergyRes, List.map_cons, List.map_nil, List.sum_cons, List.sum_nil]; ring
  · simp only [docTi, combEnergyRes, List.map_cons, List.map_nil, List.sum_cons, List.sum_nil]; ring
  · rw [docTi]
  · simp only [docTi, engineEnergyRes, he, ho, combEnergyRes, List.map_cons, List.map_nil, List.sum_cons,
      List.sum_nil]; ring
  · simp only [docTi, enginePowerRes, EngineVals.ti, he, ho]; ring
  · simp only [docTi, engineHeat1Res, EngineVals.ti, he, ho]; ring
  · simp only [docTi, engineHeat2Res, EngineVals.ti, he, ho]; ring
  · simp only [docTi, engineLossRes, EngineVals.ti, he, ho]; ring

/-- C111 for the specified heat of a cooling loop of an engine: the printed equation has a plus sign between the
enthalpies; a state satisfies both equations exactly if the mass flow or the enthalpy at the inlet is zero. -/
theorem C111_engine_heat_partial [CharZero K] (l : CoolLoop K) (Q : K) (h : engineHeatSpecRes l Q = 0) :
    Doc.engineHeat l Q ↔ l.m = 0 ∨ l.hIn = 0 := by
  unfold engineHeatSpecRes at h
  unfold Doc.engineHeat
  constructor
  · intro h'
    have : (2 : K) * (l.m * l.hIn) = 0 := by linear_combination -h' - h
    rcases mul_eq_zero.mp this with h2 | h2
    · exact absurd h2 two_ne_zero
    · exact mul_eq_zero.mp h2
  · rintro (h0 | h0)
    · rw [h0] at h ⊢; linear_combination -h
    · rw [h0] at h ⊢; linear_combination -h

/-- C111 is false for the specified heat of a cooling loop. -/
theorem C111_engine_heat_false :
    ∃ (l : CoolLoop ℚ) (Q : ℚ), engineHeatSpecRes l Q = 0 ∧ Q < 0 ∧ ¬ Doc.engineHeat l Q := by
  refine ⟨⟨1, 1, 1, 100, 300⟩, -200, ?_, by norm_num, ?_⟩
  · norm_num [engineHeatSpecRes]
  · norm_num [Doc.engineHeat]

/-- C111 for the reaction: with excess air, i.e. the current air ratio (which is the specified one in a solution) is
at least one, the printed balance of every fluid is the solved one. -/
theorem C111_stoich_partial [IsStrictOrderedRing K] (d : CombData F K) (i1 i2 out : CombStream F K) (lam : K) (spec : Option K)
    (hspec : spec = none ∨ spec = some lam) (hlam : calcLambda d [i1, i2] = .ok lam) (h1 : 1 ≤ lam)
    (hMo2 : d.o2 ≠ d.co2) (hMh : d.o2 ≠ d.h2o) (f : F) :
    Doc.stoich d i1 i2 out f ↔ stoichRes d [i1, i2] out spec f = .ok 0 := by
  have hval : lambdaVal d [i1, i2] spec = .ok lam := by
    rcases hspec with h | h <;> subst h
    · exact hlam
    · rfl
  have hst : nStoich d [i1, i2] ≠ 0 ∧ nO2 d [i1, i2] / nStoich d [i1, i2] = lam := by
    unfold calcLambda at hlam
    split at hlam
    · exact absurd hlam (by simp)
    · rename_i h; exact ⟨h, Except.ok.inj hlam⟩
  have hlam0 : lam ≠ 0 := by
    intro h; rw [h] at h1; exact absurd h1 (not_le.mpr one_pos)
  have ho2 : nO2 d [i1, i2] / lam = nStoich d [i1, i2] := by
    have := hst.2
    rw [div_eq_iff hst.1] at this
    rw [div_eq_iff hlam0, this]; ring
  have hl : ¬ lam < 1 := not_lt.mpr h1
  unfold stoichRes
  rw [hval]
  simp only
  have hok : ∀ a : K, ((Except.ok a : PyRes K) = .ok 0 ↔ a = 0) :=
    fun a => ⟨fun h => Except.ok.inj h, fun h => congrArg _ h⟩
  rw [hok]
  unfold Doc.stoich combDm Doc.delta
  simp only [docMolar, docMolarH, docMolarC, List.map_cons, List.map_nil, List.sum_cons, List.sum_nil, hExc, cExc,
    fuelExc, if_neg hl]
  by_cases e1 : f = d.o2
  · subst e1
    rw [if_pos rfl, if_neg hMo2, if_neg hMh, if_pos rfl]
    apply docIff
    left
    rw [neg_div, ho2]
    unfold nStoich
    ring
  · rw [if_neg e1]
    by_cases e2 : f = d.co2
    · rw [if_pos e2, if_pos e2]
      exact docIff (Or.inl (by ring))
    · rw [if_neg e2, if_neg e2]
      by_cases e3 : f = d.h2o
      · rw [if_pos e3, if_pos e3]
        exact docIff (Or.inl (by ring))
      · rw [if_neg e3, if_neg e3, if_neg e1]
        by_cases e4 : f ∈ d.fuels
        · rw [if_pos e4, if_pos e4]
          exact docIff (Or.inl (by ring))
        · rw [if_neg e4, if_neg e4]
          exact docIff (Or.inl (by ring))

end combustion

/-- Names of the gases of the example. -/
inductive DocGas | o2 | co2 | h2o | ch4
  deriving DecidableEq

theorem docGas_ne : DocGas.ch4 ≠ .o2 ∧ DocGas.o2 ≠ .ch4 ∧ DocGas.ch4 ≠ .co2 ∧ DocGas.ch4 ≠ .h2o ∧
    DocGas.o2 ≠ .co2 ∧ DocGas.o2 ≠ .h2o := by decide

/-- Methane with round molar masses. -/
def docMethane : CombData DocGas ℚ where
  o2 := .o2
  co2 := .co2
  h2o := .h2o
  fuels := {.ch4}
  C := fun _ => 1
  H := fun _ => 4
  M := fun | .o2 => 32 | .co2 => 44 | .h2o => 18 | .ch4 => 16
  LHV := fun _ => 50000000

/-- A stream of pure gas. -/
def docPure (g : DocGas) (m : ℚ) : CombStream DocGas ℚ := ⟨m, fun f => if f = g then 1 else 0, 0, 0⟩

/-- 16 kg/s methane and 128 kg/s oxygen: twice the stoichiometric oxygen, both the air ratio and the balance of oxygen
with 64 kg/s left. -/
example : calcLambda docMethane [docPure .ch4 16, docPure .o2 128] = .ok 2 ∧
    Doc.stoich docMethane (docPure .ch4 16) (docPure .o2 128)
      ⟨144, fun | .o2 => 64 / 144 | .co2 => 44 / 144 | .h2o => 36 / 144 | .ch4 => 0, 0, 0⟩ .o2 := by
  constructor
  · unfold calcLambda nStoich nO2 nH nC nIn docMethane docPure
    norm_num [docGas_ne]
  · unfold Doc.stoich Doc.delta Doc.molarH Doc.molarC Doc.molar docMethane docPure
    norm_num [docGas_ne]

/-- C111 is false for the reaction with too little oxygen: with half the stoichiometric oxygen the solved balance
leaves half of the methane (8 kg/s), the printed balance asks for all of it to be burnt. -/
theorem C111_stoich_false :
    ∃ out : CombStream DocGas ℚ,
      stoichRes docMethane [docPure .ch4 16, docPure .o2 32] out none .ch4 = .ok 0 ∧
      ¬ Doc.stoich docMethane (docPure .ch4 16) (docPure .o2 32) out .ch4 := by
  refine ⟨⟨48, fun | .o2 => 0 | .co2 => 22 / 48 | .h2o => 18 / 48 | .ch4 => 8 / 48, 0, 0⟩, ?_, ?_⟩
  · unfold stoichRes lambdaVal calcLambda combDm fuelExc nStoich nO2 nH nC nIn docMethane docPure
    norm_num [docGas_ne]
  · unfold Doc.stoich Doc.delta Doc.molar docMethane docPure
    norm_num [docGas_ne]

/-- C111 is false for the air ratio: burning methane with twice the stoichiometric oxygen satisfies the solved equation
for 2; the printed formula has the value 1/8 (the quotient is upside down and the number of moles of oxygen per mole of
fuel is on the wrong side of the fraction). -/
theorem C111_lambda_false :
    lambdaRes docMethane [docPure .ch4 16, docPure .o2 128] 2 = .ok 0 ∧
    ¬ Doc.lambda docMethane (docPure .ch4 16) (docPure .o2 128) .ch4 2 ∧
    Doc.lambda docMethane (docPure .ch4 16) (docPure .o2 128) .ch4 (1 / 8) := by
  refine ⟨?_, ?_, ?_⟩
  · unfold lambdaRes calcLambda nStoich nO2 nH nC nIn docMethane docPure
    norm_num [docGas_ne]
  · unfold Doc.lambda Doc.molar docMethane docPure
    norm_num [docGas_ne]
  · unfold Doc.lambda Doc.molar docMethane docPure
    norm_num [docGas_ne]

/-- C111 for the air ratio: for one fuel with stoichiometric oxygen `s = n_C + n_H/4` per mole, a state satisfies the
printed and the solved equation exactly if the air ratio is `1/s` (positive amounts). -/
theorem C111_lambda_partial {F K : Type} [DecidableEq F] [Field K] [LinearOrder K] [IsStrictOrderedRing K]
    (d : CombData F K) (i1 i2 : CombStream F K) (fuel : F) (lam : K) (hf : d.fuels = {fuel})
    (hn : 0 < nIn d [i1, i2] fuel) (ho : 0 < nIn d [i1, i2] d.o2) (hs : 0 < d.C fuel + 1 / 4 * d.H fuel)
    (hl : lambdaRes d [i1, i2] lam = .ok 0) :
    Doc.lambda d i1 i2 fuel lam ↔ lam * (d.C fuel + 1 / 4 * d.H fuel) = 1 := by
  have hst : nStoich d [i1, i2] = nIn d [i1, i2] fuel * (d.C fuel + 1 / 4 * d.H fuel) := by
    unfold nStoich nH nC
    rw [hf, Finset.sum_singleton, Finset.sum_singleton]; ring
  have hne : nStoich d [i1, i2] ≠ 0 := by rw [hst]; exact (mul_pos hn hs).ne'
  have hlam : nIn d [i1, i2] d.o2 = lam * (nIn d [i1, i2] fuel * (d.C fuel + 1 / 4 * d.H fuel)) := by
    unfold lambdaRes calcLambda at hl
    rw [if_neg hne] at hl
    have := Except.ok.inj hl
    rw [sub_eq_zero, div_eq_iff hne, hst] at this
    exact this
  have hlp : 0 < lam := by
    by_contra h
    have h' := mul_nonpos_of_nonpos_of_nonneg (not_lt.mp h) (mul_pos hn hs).le
    rw [← hlam] at h'
    exact absurd ho (not_lt.mpr h')
  unfold Doc.lambda
  rw [docMolar, docMolar]
  generalize hS : d.C fuel + 1 / 4 * d.H fuel = S at *
  generalize hN : nIn d [i1, i2] fuel = N at *
  generalize hO : nIn d [i1, i2] d.o2 = O at *
  have hval : N / (O * S) = 1 / (lam * S * S) := by
    rw [hlam]; field_simp
  rw [hval]
  have hpos : 0 < lam * S * S := mul_pos (mul_pos hlp hs) hs
  constructor
  · intro h
    have h2 : 1 / (lam * S * S) = lam := (sub_eq_zero.mp h.symm)
    rw [div_eq_iff hpos.ne'] at h2
    have h3 : (lam * S - 1) * (lam * S + 1) = 0 := by linear_combination -h2
    rcases mul_eq_zero.mp h3 with h4 | h4
    · exact sub_eq_zero.mp h4
    · exact absurd h4 (add_pos (mul_pos hlp hs) one_pos).ne'
  · intro h
    rw [h, one_mul]
    have : 1 / S = lam := by rw [div_eq_iff hs.ne']; exact h.symm
    rw [this]; ring

/-- The hypotheses of `C111_lambda_partial` hold for methane in twice the stoichiometric oxygen. -/
example : docMethane.fuels = {DocGas.ch4} ∧ 0 < nIn docMethane [docPure .ch4 16, docPure .o2 128] .ch4 ∧
    0 < nIn docMethane [docPure .ch4 16, docPure .o2 128] docMethane.o2 ∧
    0 < docMethane.C .ch4 + 1 / 4 * docMethane.H .ch4 := by
  refine ⟨rfl, ?_, ?_, ?_⟩
  · unfold nIn docMethane docPure; norm_num [docGas_ne]
  · unfold nIn docMethane docPure; norm_num [docGas_ne]
  · unfold docMethane; norm_num

/-! ### reactors -/

section reactors
variable {K : Type} [Field K]

/-- C111: efficiency, heat, specific energy and energy balance of fuel cells; efficiency, heat, specific energy,
characteristic equation and balances of the gases of water electrolyzers. -/
theorem C111_reactors [DecidableEq K] (v : ReactorVals K) (MO2 a mDesign c : K) (char : K → PyRes K)
    (hm : v.hydrogen.m / mDesign ≠ 0) (hc : char (v.hydrogen.m / mDesign) = .ok c) :
    (Doc.cellEta v (cellE0 v.MH2) a ↔ cellEtaRes v a = 0) ∧
    (Doc.cellHeat v a ↔ cellHeatRes v a = 0) ∧
    (Doc.spec v a ↔ cellSpecRes v a = 0) ∧
    (Doc.cellEnergy v (cellE0 v.MH2) ↔ cellEnergyRes v = 0) ∧
    (Doc.elecEta v (elecE0 v.MH2) a ↔ elecEtaRes v a = 0) ∧
    (Doc.elecHeat v a ↔ elecHeatRes v a = 0) ∧
    (Doc.spec v a ↔ elecSpecRes v a = 0) ∧
    (Doc.elecChar v (elecE0 v.MH2) a c ↔ elecCharRes v a mDesign char = .ok 0) ∧
    (Doc.elecMass MO2 v ↔ elecMassRes MO2 v = (0, 0)) := by
  refine ⟨docIff (Or.inl rfl), docIff (Or.inl rfl), docIff (Or.inl rfl), docIff (Or.inl ?_), docIff (Or.inl rfl),
    docIff (Or.inl rfl), docIff (Or.inl rfl), ?_, ?_⟩
  · unfold cellEnergyRes cellCalcP; ring
  · unfold Doc.elecChar elecCharRes
    simp only
    rw [if_neg hm, hc]
    simp only
    rw [mul_div_assoc]
    exact ⟨fun h => congrArg _ h.symm, fun h => (Except.ok.inj h).symm⟩
  · unfold Doc.elecMass elecMassRes
    simp only [Prod.mk.injEq]
    exact ⟨fun h => ⟨h.1.symm, h.2.symm⟩, fun h => ⟨h.1.symm, h.2.symm⟩⟩

/-- C111 for the energy balance of water electrolyzers: the printed hydrogen term has the opposite sign; a state
satisfies both equations exactly if that term is zero. -/
theorem C111_elec_energy_partial [CharZero K] (v : ReactorVals K) (h : elecEnergyRes v = 0) :
    Doc.elecEnergy v (elecE0 v.MH2) ↔ v.hydrogen.m * (v.hydrogen.h - v.hydrogen.href + elecE0 v.MH2) = 0 := by
  unfold elecEnergyRes elecCalcP at h
  unfold Doc.elecEnergy
  constructor
  · intro h'
    have : (2 : K) * (v.hydrogen.m * (v.hydrogen.h - v.hydrogen.href + elecE0 v.MH2)) = 0 := by
      linear_combination -h' - h
    rcases mul_eq_zero.mp this with h2 | h2
    · exact absurd h2 two_ne_zero
    · exact h2
  · intro h0
    linear_combination -h - 2 * h0

/-- C111 is false for the energy balance of water electrolyzers: hydrogen produced at reference conditions with the
power `ṁ·e0` satisfies the solved equation, the printed one asks for the negative power. -/
theorem C111_elec_energy_false :
    ∃ v : ReactorVals ℚ, 0 < v.hydrogen.m ∧ elecEnergyRes v = 0 ∧ ¬ Doc.elecEnergy v (elecE0 v.MH2) ∧
      Doc.elecEnergy { v with P := -v.P } (elecE0 v.MH2) := by
  refine ⟨⟨⟨0, 1, 1, 0, 0⟩, ⟨9, 0, 0⟩, ⟨8, 0, 0⟩, ⟨1, 0, 0⟩, elecE0 2, 2⟩, by norm_num, ?_, ?_, ?_⟩
  · norm_num [elecEnergyRes, elecCalcP, elecE0]
  · norm_num [Doc.elecEnergy, elecE0]
  · norm_num [Doc.elecEnergy, elecE0]

/-- C111 for the mass balance of fuel cells: the first printed equation takes the water of outlet 1; a state satisfies
both exactly if the cooling loop has the mass flow of the produced water (positive molar masses). -/
theorem C111_cell_mass_partial (MO2 : K) (v : ReactorVals K) (hM : MO2 ≠ 0) (hs : MO2 + 2 * v.MH2 ≠ 0)
    (h : cellMassRes MO2 v = (0, 0)) : Doc.cellMass MO2 v ↔ v.loop.m = v.water.m := by
  unfold cellMassRes at h
  simp only [Prod.mk.injEq] at h
  unfold Doc.cellMass
  constructor
  · rintro ⟨h1, -⟩
    have : MO2 / (MO2 + 2 * v.MH2) * (v.loop.m - v.water.m) = 0 := by linear_combination -h1 - h.1
    rcases mul_eq_zero.mp this with h2 | h2
    · exact absurd h2 (div_ne_zero hM hs)
    · exact sub_eq_zero.mp h2
  · intro h0
    rw [h0]
    exact ⟨h.1.symm, h.2.symm⟩

/-- C111 is false for the mass balance of fuel cells. -/
theorem C111_cell_mass_false :
    ∃ v : ReactorVals ℚ, cellMassRes 32 v = (0, 0) ∧ 0 < v.water.m ∧ ¬ Doc.cellMass 32 v := by
  refine ⟨⟨⟨5, 1, 1, 0, 0⟩, ⟨9, 0, 0⟩, ⟨8, 0, 0⟩, ⟨1, 0, 0⟩, 0, 2⟩, ?_, by norm_num, ?_⟩
  · norm_num [cellMassRes]
  · norm_num [Doc.cellMass]

end reactors

/-- The hypotheses of `C111_reactors` hold for an electrolyzer at half load with a line of value 19/20. -/
example : ∃ (v : ReactorVals ℚ) (char : ℚ → PyRes ℚ), v.hydrogen.m / 2 ≠ 0 ∧ char (v.hydrogen.m / 2) = .ok (19 / 20) :=
  ⟨⟨⟨5, 1, 1, 0, 0⟩, ⟨9, 0, 0⟩, ⟨8, 0, 0⟩, ⟨1, 0, 0⟩, 0, 2⟩, fun _ => .ok (19 / 20), by norm_num, rfl⟩

/-! ### nodes and connections -/

section nodes
variable {K : Type} [CommRing K]

/-- All entries of a residual are zero. -/
def Resid.isZero : Resid K → Prop
  | .scalar x => x = 0
  | .vec l => ∀ x ∈ l, x = 0

theorem docFoldlSub {α : Type} (g : α → K) (l : List α) (a : K) :
    l.foldl (fun r o => r - g o) a = a - (l.map g).sum := by
  induction l generalizing a with
  | nil => simp
  | cons x t ih => rw [List.foldl_cons, ih, List.map_cons, List.sum_cons]; ring

theorem docFoldlAdd {α : Type} (g : α → K) (l : List α) (a : K) :
    l.foldl (fun r o => r + g o) a = a + (l.map g).sum := by
  induction l generalizing a with
  | nil => simp
  | cons x t ih => rw [List.foldl_cons, ih, List.map_cons, List.sum_cons]; ring

/-- C111: mass, energy and pressure equations of nodes with any number of inlets and outlets, the fluid balances of
merges, the enthalpies behind splitters, the temperatures behind separators and the outlet states of droplet separators. -/
theorem C111_nodes (P : PropFuncs K) (s : EqState K) (i0 o0 o1 : Port) (inl outl : List Port)
    (hk : ∀ i ∈ inl, ∀ f ∈ s.keys o0.fl, f ∈ s.keys i.fl) :
    (Doc.nodeMass s inl outl ↔ (nodeMass s inl outl).isZero) ∧
    (Doc.nodePressure s i0 inl outl ↔ (nodePressure s i0 inl outl).isZero) ∧
    (Doc.nodeEnergy s inl outl ↔ (nodeEnergy s inl outl).isZero) ∧
    (∃ r, mergeFluid s inl o0 = .ok r ∧ (Doc.mergeFluid s (s.keys o0.fl) inl o0 ↔ r.isZero)) ∧
    (Doc.mergeEnergy s inl o0 ↔ (mergeEnergy s inl o0).isZero) ∧
    (Doc.splitEnergy s i0 outl ↔ (splitEnergy s i0 outl).isZero) ∧
    (Doc.sepEnergy P s i0 outl ↔ (sepEnergy P s i0 outl).isZero) ∧
    (Doc.outletStates P s o0 o1 ↔ (outletStates P s o0 o1).isZero) := by
  refine ⟨?_, ?_, ?_, ?_, ?_, ?_, ?_, ?_⟩
  · apply docIff
    left
    rw [docFoldlSub, docFoldlAdd]; ring
  · unfold Doc.nodePressure nodePressure Resid.isZero
    constructor
    · rintro ⟨h1, h2⟩ x hx
      obtain ⟨c, hc, rfl⟩ := List.mem_map.mp hx
      rcases List.mem_append.mp hc with h | h
      · exact (h1 c h).symm
      · exact (h2 c h).symm
    · intro h
      exact ⟨fun i hi => (h _ (List.mem_map.mpr ⟨i, List.mem_append_left _ hi, rfl⟩)).symm,
        fun i hi => (h _ (List.mem_map.mpr ⟨i, List.mem_append_right _ hi, rfl⟩)).symm⟩
  · apply docIff
    left
    rw [docFoldlSub, docFoldlAdd]; ring
  · unfold mergeFluid
    rw [if_pos (by
      rw [List.all_eq_true]
      intro i hi
      rw [List.all_eq_true]
      intro f hf
      simpa using hk i hi f hf)]
    refine ⟨_, rfl, ?_⟩
    unfold Doc.mergeFluid Resid.isZero
    have hfl : ∀ f : String, inl.foldl (fun r i => r + s.xv i f * s.mv i) (-(s.xv o0 f) * s.mv o0)
        = (inl.map (fun i => s.mv i * s.xv i f)).sum - s.mv o0 * s.xv o0 f := by
      intro f
      rw [docFoldlAdd]
      have : (fun i : Port => s.xv i f * s.mv i) = fun i => s.mv i * s.xv i f := by
        funext i; ring
      rw [this]; ring
    constructor
    · intro h x hx
      obtain ⟨f, hf, rfl⟩ := List.mem_map.mp hx
      rw [hfl]
      exact (h f hf).symm
    · intro h f hf
      have := h _ (List.mem_map.mpr ⟨f, hf, rfl⟩)
      rw [hfl] at this
      exact this.symm
  · apply docIff
    left
    rw [docFoldlAdd]; ring
  · unfold Doc.splitEnergy splitEnergy Resid.isZero
    constructor
    · intro h x hx
      obtain ⟨c, hc, rfl⟩ := List.mem_map.mp hx
      exact (h c hc).symm
    · intro h j hj
      exact (h _ (List.mem_map.mpr ⟨j, hj, rfl⟩)).symm
  · unfold Doc.sepEnergy sepEnergy Resid.isZero
    constructor
    · intro h x hx
      obtain ⟨c, hc, rfl⟩ := List.mem_map.mp hx
      exact (h c hc).symm
    · intro h j hj
      exact (h _ (List.mem_map.mpr ⟨j, hj, rfl⟩)).symm
  · unfold Doc.outletStates outletStates Resid.isZero
    constructor
    · rintro ⟨h1, h2⟩ x hx
      rcases List.mem_cons.mp hx with rfl | hx
      · linear_combination h1
      · rcases List.mem_cons.mp hx with rfl | hx
        · linear_combination h2
        · exact absurd hx (by simp)
    · intro h
      have h1 := h _ List.mem_cons_self
      have h2 := h _ (List.mem_cons_of_mem _ List.mem_cons_self)
      exact ⟨by linear_combination h1, by linear_combination h2⟩

/-- C111 for the fluid balances of separators: the printed equation is written for each outlet alone. If the printed
and the solved equations hold, no outlet but one can carry anything of a fluid which enters: with `n` outlets
`(n - 1)·ṁ·x = 0` at the inlet. For a single outlet both are the same. -/
theorem C111_separator_partial (s : EqState K) (fl : List String) (i : Port) (outl : List Port) :
    (Doc.sepFluid s fl i outl → (sepFluid s fl i outl).isZero →
      ∀ f ∈ fl, ((outl.length : K) - 1) * (s.mv i * s.xv i f) = 0) ∧
    (∀ o, outl = [o] → (Doc.sepFluid s fl i outl ↔ (sepFluid s fl i outl).isZero)) := by
  have hfl : ∀ f : String, outl.foldl (fun r o => r - s.xv o f * s.mv o) (s.xv i f * s.mv i)
      = s.mv i * s.xv i f - (outl.map (fun o => s.mv o * s.xv o f)).sum := by
    intro f
    rw [docFoldlSub]
    have : (fun o : Port => s.xv o f * s.mv o) = fun o => s.mv o * s.xv o f := by
      funext o; ring
    rw [this]; ring
  constructor
  · intro hd hs f hf
    have h1 := hs _ (List.mem_map.mpr ⟨f, hf, rfl⟩)
    rw [hfl] at h1
    have h2 : (outl.map (fun o => s.mv o * s.xv o f)).sum = (outl.length : K) * (s.mv i * s.xv i f) := by
      have : outl.map (fun o => s.mv o * s.xv o f) = outl.map (fun _ => s.mv i * s.xv i f) :=
        List.map_congr_left (fun o ho => by linear_combination hd f hf o ho)
      rw [this, List.map_const', List.sum_replicate, nsmul_eq_mul]
    rw [h2] at h1
    linear_combination -h1
  · rintro o rfl
    unfold Doc.sepFluid
    constructor
    · intro h x hx
      obtain ⟨f, hf, rfl⟩ := List.mem_map.mp hx
      rw [hfl]
      have := h f hf o List.mem_cons_self
      simp only [List.map_cons, List.map_nil, List.sum_cons, List.sum_nil, add_zero]
      exact this.symm
    · intro h f hf j hj
      have h1 := h _ (List.mem_map.mpr ⟨f, hf, rfl⟩)
      rw [hfl] at h1
      simp only [List.map_cons, List.map_nil, List.sum_cons, List.sum_nil, add_zero] at h1
      rw [List.mem_singleton.mp hj]
      exact h1.symm

/-- C111: temperature, volumetric flow and vapour quality of connections. -/
theorem C111_connections (P : ConnFuncs K) (s : EqState K) (c : Port) (v : K) :
    (Doc.connT P s c v ↔ tFunc P s c v = 0) ∧ (Doc.connV P s c v ↔ vFunc P s c v = 0) ∧
    (Doc.connX P s c v ↔ xFunc P s c v = 0) := by
  refine ⟨docIff (Or.inl rfl), docIff (Or.inl ?_), docIff (Or.inl rfl)⟩
  unfold vFunc; ring

/-- C111 for the temperature difference to boiling and for references: a state satisfies the printed and the solved
equation exactly if the temperature is twice the difference, and exactly if twice `delta` is zero, respectively. -/
theorem C111_connections_partial (P : ConnFuncs K) (s : EqState K) (c : Port) (a b : Var) (v factor delta : K) :
    (tdFunc P s c v = 0 → (Doc.connTd P s c v ↔ s.tv P.toPropFuncs c = 2 * v)) ∧
    (refFunc s a b factor delta = 0 → (Doc.connRef (s.val a) (s.val b) factor delta ↔ 2 * delta = 0)) := by
  constructor
  · intro h
    unfold tdFunc at h
    unfold Doc.connTd
    constructor
    · intro h'; linear_combination h + h'
    · intro h'; linear_combination h' - h
  · intro h
    unfold refFunc at h
    unfold Doc.connRef
    constructor
    · intro h'; linear_combination -h' - h
    · intro h'; linear_combination -h - h'

end nodes

/-- C111 is false for separators, the difference to boiling and references: half of a mixture of two fluids leaves at
each outlet; steam 10 K above 373 K; 5 above the referenced value. -/
theorem C111_connections_false :
    (∃ (s : EqState ℚ) (i o1 o2 : Port), (sepFluid s ["N2", "O2"] i [o1, o2]).isZero ∧
      ¬ Doc.sepFluid s ["N2", "O2"] i [o1, o2]) ∧
    (∃ (P : ConnFuncs ℚ) (s : EqState ℚ) (c : Port), tdFunc P s c 10 = 0 ∧ ¬ Doc.connTd P s c 10) ∧
    (∃ s : EqState ℚ, refFunc s (.m 0) (.m 1) 1 5 = 0 ∧ ¬ Doc.connRef (s.val (.m 0)) (s.val (.m 1)) 1 5) := by
  refine ⟨⟨⟨fun | .m 0 => 2 | .m _ => 1 | .x _ _ => 1 / 2 | _ => 0, fun _ => true, fun _ => none, fun _ => [],
      fun _ => []⟩, ⟨0, 0, 0, 0⟩, ⟨1, 1, 1, 1⟩, ⟨2, 2, 2, 2⟩, ?_, ?_⟩,
    ⟨⟨⟨fun _ _ _ => 0, fun _ _ _ => 0, fun _ _ _ => 383, fun _ _ _ => 0, fun _ _ _ => 0⟩, fun _ _ _ => 0,
      fun _ _ _ => 0, fun _ _ _ => 0, fun _ _ => 373, fun _ _ => 0, fun _ _ _ => 0, fun _ _ _ => 0,
      fun _ _ _ _ => 0⟩, ⟨fun _ => 0, fun _ => true, fun _ => none, fun _ => [], fun _ => []⟩, ⟨0, 0, 0, 0⟩, ?_, ?_⟩,
    ⟨⟨fun | .m 0 => 15 | _ => 10, fun _ => true, fun _ => none, fun _ => [], fun _ => []⟩, ?_, ?_⟩⟩
  · intro x hx
    obtain ⟨f, -, rfl⟩ := List.mem_map.mp hx
    norm_num [EqState.xv, EqState.mv]
  · intro h
    have := h "N2" List.mem_cons_self ⟨1, 1, 1, 1⟩ List.mem_cons_self
    norm_num [EqState.xv, EqState.mv] at this
  · norm_num [tdFunc, EqState.tv]
  · norm_num [Doc.connTd]
  · norm_num [refFunc]
  · norm_num [Doc.connRef]

end Tespy
