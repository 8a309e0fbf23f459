import Verif.Model.Combustion
import Mathlib.Algebra.BigOperators.Ring.Finset
import Mathlib.Algebra.BigOperators.Ring.List
import Mathlib.Algebra.BigOperators.Field
import Mathlib.Algebra.Order.BigOperators.Group.Finset
import Mathlib.Algebra.Order.Field.Rat
import Mathlib.Tactic.Linarith
import Mathlib.Tactic.FieldSimp
import Mathlib.Tactic.Ring
import Mathlib.Tactic.NormNum
import Mathlib.Tactic.LinearCombination

/-!
C37: mass and element balances of combustion chambers.
C60: the energy balance of combustion chambers and formation enthalpies.
-/
namespace Tespy

variable {F K : Type} [DecidableEq F] [Field K] [LinearOrder K] [IsStrictOrderedRing K]

/-! ### Specification: atoms carried by a stream -/

/-- Carbon atoms per time carried by a stream. -/
def Spec.carbon (d : CombData F K) (s : CombStream F K) : K :=
  s.m * s.x d.co2 / d.M d.co2 + ∑ f ∈ d.fuels, d.C f * (s.m * s.x f / d.M f)
/-- Hydrogen atoms per time carried by a stream. -/
def Spec.hydrogen (d : CombData F K) (s : CombStream F K) : K :=
  2 * (s.m * s.x d.h2o / d.M d.h2o) + ∑ f ∈ d.fuels, d.H f * (s.m * s.x f / d.M f)
/-- Oxygen atoms per time carried by a stream. -/
def Spec.oxygen (d : CombData F K) (s : CombStream F K) : K :=
  2 * (s.m * s.x d.o2 / d.M d.o2) + 2 * (s.m * s.x d.co2 / d.M d.co2)
    + s.m * s.x d.h2o / d.M d.h2o

/-- Reaction data of distinct gases with non-zero molar masses; every fuel contains carbon or
hydrogen. -/
structure CombData.Ok (d : CombData F K) : Prop where
  ow : d.co2 ≠ d.h2o
  oo : d.o2 ≠ d.co2
  oh : d.o2 ≠ d.h2o
  f1 : d.co2 ∉ d.fuels
  f2 : d.h2o ∉ d.fuels
  f3 : d.o2 ∉ d.fuels
  Mo : d.M d.o2 ≠ 0
  Mc : d.M d.co2 ≠ 0
  Mh : d.M d.h2o ≠ 0
  Mf : ∀ f ∈ d.fuels, d.M f ≠ 0
  dem : ∀ f ∈ d.fuels, d.H f / 4 + d.C f ≠ 0

/-- All stoichiometry equations of the component are satisfied (for the fluids `fl`), and the air
ratio used by them is the actual one: lambda is not specified, or its equation is satisfied. -/
structure Spec.Burnt (d : CombData F K) (inl : List (CombStream F K)) (out : CombStream F K)
    (spec : Option K) (fl : Finset F) : Prop where
  data : d.Ok
  stoich : ∀ f ∈ fl, stoichRes d inl out spec f = .ok 0
  lam : ∀ l, spec = some l → lambdaRes d inl l = .ok 0
  ho : d.o2 ∈ fl
  hc : d.co2 ∈ fl
  hh : d.h2o ∈ fl
  hf : d.fuels ⊆ fl

/-- Amount of a fluid supplied by all inlets per time. -/
def Spec.supplied (d : CombData F K) (inl : List (CombStream F K)) (f : F) : K :=
  (inl.map (fun i => i.m * i.x f / d.M f)).sum
/-- Carbon atoms per time in the fuels of all inlets. -/
def Spec.fuelCarbon (d : CombData F K) (inl : List (CombStream F K)) : K :=
  ∑ f ∈ d.fuels, Spec.supplied d inl f * d.C f
/-- Hydrogen atoms per time in the fuels of all inlets. -/
def Spec.fuelHydrogen (d : CombData F K) (inl : List (CombStream F K)) : K :=
  ∑ f ∈ d.fuels, Spec.supplied d inl f * d.H f
/-- Oxygen molecules required: one for each carbon atom, one for four hydrogen atoms. -/
def Spec.oxygenDemand (d : CombData F K) (inl : List (CombStream F K)) : K :=
  Spec.fuelHydrogen d inl / 4 + Spec.fuelCarbon d inl
/-- The actual air ratio: oxygen supplied over oxygen required. -/
def Spec.airRatio (d : CombData F K) (inl : List (CombStream F K)) : K :=
  Spec.supplied d inl d.o2 / Spec.oxygenDemand d inl

theorem nC_eq (d : CombData F K) (inl : List (CombStream F K)) : nC d inl = Spec.fuelCarbon d inl := rfl
theorem nH_eq (d : CombData F K) (inl : List (CombStream F K)) : nH d inl = Spec.fuelHydrogen d inl := rfl
theorem nO2_eq (d : CombData F K) (inl : List (CombStream F K)) : nO2 d inl = Spec.supplied d inl d.o2 := rfl
theorem nStoich_eq (d : CombData F K) (inl : List (CombStream F K)) : nStoich d inl = Spec.oxygenDemand d inl := rfl
theorem airRatio_eq (d : CombData F K) (inl : List (CombStream F K)) : Spec.airRatio d inl = nO2 d inl / nStoich d inl := rfl

variable {d : CombData F K} {inl : List (CombStream F K)} {out : CombStream F K}
  {spec : Option K} {fl : Finset F}

theorem calcLambda_ok {l : K} (h : calcLambda d inl = .ok l) :
    nStoich d inl ≠ 0 ∧ l = Spec.airRatio d inl := by
  unfold calcLambda at h
  split at h
  · cases h
  · next hs => exact ⟨hs, (Except.ok.inj h).symm⟩

theorem Spec.Burnt.lambda (h : Spec.Burnt d inl out spec fl) :
    nStoich d inl ≠ 0 ∧ lambdaVal d inl spec = .ok (Spec.airRatio d inl) := by
  cases hs : spec with
  | some l =>
    have hl := h.lam l hs
    unfold lambdaRes at hl
    cases hc : calcLambda d inl with
    | error e => rw [hc] at hl; cases hl
    | ok a =>
      rw [hc] at hl
      obtain ⟨h1, h2⟩ := calcLambda_ok hc
      have : a - l = 0 := Except.ok.inj hl
      refine ⟨h1, ?_⟩
      show Except.ok l = _
      rw [← h2, sub_eq_zero.1 this]
  | none =>
    have hst := h.stoich _ h.ho
    rw [hs] at hst
    unfold stoichRes lambdaVal at hst
    cases hc : calcLambda d inl with
    | error e => rw [hc] at hst; cases hst
    | ok a =>
      obtain ⟨h1, h2⟩ := calcLambda_ok hc
      exact ⟨h1, by show calcLambda d inl = _; rw [hc, h2]⟩

theorem Spec.Burnt.outlet (h : Spec.Burnt d inl out spec fl) {f : F} (hf : f ∈ fl) :
    out.m * out.x f = (inl.map (fun i => i.m * i.x f)).sum
      + combDm d inl (Spec.airRatio d inl) f := by
  have hst := h.stoich f hf
  unfold stoichRes at hst
  rw [h.lambda.2] at hst
  have := Except.ok.inj hst
  have e : (inl.map (fun i => i.x f * i.m)) = inl.map (fun i => i.m * i.x f) :=
    List.map_congr_left (fun _ _ => mul_comm _ _)
  rw [e] at this
  linear_combination -this

theorem nIn_eq (f : F) : nIn d inl f = (inl.map (fun i => i.m * i.x f)).sum / d.M f := by
  unfold nIn
  rw [div_eq_mul_inv, ← List.sum_map_mul_right]
  simp only [div_eq_mul_inv]

/-- Molar flow leaving the chamber. -/
theorem Spec.Burnt.molar (h : Spec.Burnt d inl out spec fl) {f : F} (hf : f ∈ fl) :
    out.m * out.x f / d.M f = nIn d inl f + combDm d inl (Spec.airRatio d inl) f / d.M f := by
  rw [h.outlet hf, add_div, nIn_eq]

theorem list_sum_finset (inl : List (CombStream F K)) (s : Finset F) (g : CombStream F K → F → K) :
    (inl.map (fun i => ∑ f ∈ s, g i f)).sum = ∑ f ∈ s, (inl.map (fun i => g i f)).sum := by
  induction inl with
  | nil => simp
  | cons a l ih => simp [ih, Finset.sum_add_distrib]

theorem sum_carbon_in :
    (inl.map (Spec.carbon d)).sum = nIn d inl d.co2 + nC d inl := by
  unfold Spec.carbon nC
  rw [List.sum_map_add, list_sum_finset]
  congr 1
  apply Finset.sum_congr rfl
  intro f _
  rw [List.sum_map_mul_left, mul_comm]; rfl

theorem sum_hydrogen_in :
    (inl.map (Spec.hydrogen d)).sum = 2 * nIn d inl d.h2o + nH d inl := by
  unfold Spec.hydrogen nH
  rw [List.sum_map_add, list_sum_finset, List.sum_map_mul_left]
  congr 1
  apply Finset.sum_congr rfl
  intro f _
  rw [List.sum_map_mul_left, mul_comm]; rfl

theorem sum_oxygen_in :
    (inl.map (Spec.oxygen d)).sum
      = 2 * nIn d inl d.o2 + 2 * nIn d inl d.co2 + nIn d inl d.h2o := by
  unfold Spec.oxygen
  rw [List.sum_map_add, List.sum_map_add, List.sum_map_mul_left, List.sum_map_mul_left]
  rfl

theorem combDm_co2 (lam : K) : combDm d inl lam d.co2
    = (nC d inl - cExc d inl lam) * d.M d.co2 := by
  unfold combDm; rw [if_pos rfl]
theorem combDm_h2o (h : d.Ok) (lam : K) : combDm d inl lam d.h2o
    = (nH d inl - hExc d inl lam) / 2 * d.M d.h2o := by
  unfold combDm; rw [if_neg h.ow.symm, if_pos rfl]
theorem combDm_o2 (h : d.Ok) (lam : K) : combDm d inl lam d.o2
    = if lam < 1 then -nO2 d inl * d.M d.o2 else -nO2 d inl / lam * d.M d.o2 := by
  unfold combDm; rw [if_neg h.oo, if_neg h.oh, if_pos rfl]
theorem combDm_fuel (h : d.Ok) (lam : K) {f : F} (hf : f ∈ d.fuels) : combDm d inl lam f
    = -(nIn d inl f - fuelExc d inl lam f) * d.M f := by
  unfold combDm
  have h1 : f ≠ d.co2 := fun e => h.f1 (e ▸ hf)
  have h2 : f ≠ d.h2o := fun e => h.f2 (e ▸ hf)
  have h3 : f ≠ d.o2 := fun e => h.f3 (e ▸ hf)
  rw [if_neg h1, if_neg h2, if_neg h3, if_pos hf]

theorem fuelExc_eq (h : d.Ok) (lam : K) {f : F} (hf : f ∈ d.fuels) :
    fuelExc d inl lam f = if lam < 1 then (1 - Spec.airRatio d inl) * nIn d inl f else 0 := by
  rw [airRatio_eq]; unfold fuelExc
  split
  · have := h.dem f hf
    rw [div_eq_iff this]; ring
  · rfl

/-- The share of the fuel that is not burnt: zero for air ratios of at least one. -/
def Spec.unburnt (d : CombData F K) (inl : List (CombStream F K)) : K :=
  if Spec.airRatio d inl < 1 then 1 - Spec.airRatio d inl else 0

theorem Spec.Burnt.fuel_out (h : Spec.Burnt d inl out spec fl) {f : F} (hf : f ∈ d.fuels) :
    out.m * out.x f / d.M f = Spec.unburnt d inl * nIn d inl f := by
  rw [h.molar (h.hf hf), combDm_fuel h.data _ hf, fuelExc_eq h.data _ hf, mul_div_assoc,
    div_self (h.data.Mf f hf)]
  unfold Spec.unburnt
  split <;> ring

theorem excess_eq (hs : nStoich d inl ≠ 0) :
    cExc d inl (Spec.airRatio d inl) = Spec.unburnt d inl * nStoich d inl ∧
    hExc d inl (Spec.airRatio d inl) = 4 * (Spec.unburnt d inl * nStoich d inl) := by
  have e : Spec.airRatio d inl * nStoich d inl = nO2 d inl := by
    rw [airRatio_eq]; exact div_mul_cancel₀ _ hs
  unfold cExc hExc Spec.unburnt
  split
  · constructor <;> rw [← e] <;> ring
  · constructor <;> ring

theorem o2_used (h : d.Ok) (hs : nStoich d inl ≠ 0) (h0 : 0 < Spec.airRatio d inl) :
    combDm d inl (Spec.airRatio d inl) d.o2 / d.M d.o2
      = -((1 - Spec.unburnt d inl) * nStoich d inl) := by
  have e : Spec.airRatio d inl * nStoich d inl = nO2 d inl := by
    rw [airRatio_eq]; exact div_mul_cancel₀ _ hs
  rw [combDm_o2 h]
  unfold Spec.unburnt
  split
  · rw [mul_div_assoc, div_self h.Mo, ← e]; ring
  · rw [mul_div_assoc, div_self h.Mo, ← e]; field_simp; ring

theorem comb_element_balance_aux (h : Spec.Burnt d inl out spec fl) (h0 : 0 < Spec.airRatio d inl) :
    Spec.carbon d out = (inl.map (Spec.carbon d)).sum - Spec.unburnt d inl * (nH d inl / 4) ∧
    Spec.hydrogen d out = (inl.map (Spec.hydrogen d)).sum
      - Spec.unburnt d inl * (4 * nC d inl) ∧
    Spec.oxygen d out = (inl.map (Spec.oxygen d)).sum
      - Spec.unburnt d inl * (2 * nStoich d inl) := by
  have hs := h.lambda.1
  obtain ⟨ec, eh⟩ := excess_eq hs
  have hco2 : out.m * out.x d.co2 / d.M d.co2
      = nIn d inl d.co2 + (nC d inl - Spec.unburnt d inl * nStoich d inl) := by
    rw [h.molar h.hc, combDm_co2, ec, mul_div_assoc, div_self h.data.Mc, mul_one]
  have hh2o : out.m * out.x d.h2o / d.M d.h2o
      = nIn d inl d.h2o + (nH d inl - 4 * (Spec.unburnt d inl * nStoich d inl)) / 2 := by
    rw [h.molar h.hh, combDm_h2o h.data, eh, mul_div_assoc, div_self h.data.Mh, mul_one]
  have ho2 : out.m * out.x d.o2 / d.M d.o2
      = nIn d inl d.o2 - (1 - Spec.unburnt d inl) * nStoich d inl := by
    rw [h.molar h.ho, o2_used h.data hs h0]; ring
  have hfC : ∑ f ∈ d.fuels, d.C f * (out.m * out.x f / d.M f)
      = Spec.unburnt d inl * nC d inl := by
    unfold nC
    rw [Finset.mul_sum]
    apply Finset.sum_congr rfl
    intro f hf
    rw [h.fuel_out hf]; ring
  have hfH : ∑ f ∈ d.fuels, d.H f * (out.m * out.x f / d.M f)
      = Spec.unburnt d inl * nH d inl := by
    unfold nH
    rw [Finset.mul_sum]
    apply Finset.sum_congr rfl
    intro f hf
    rw [h.fuel_out hf]; ring
  refine ⟨?_, ?_, ?_⟩
  · rw [sum_carbon_in]
    unfold Spec.carbon
    rw [hco2, hfC]
    unfold nStoich; ring
  · rw [sum_hydrogen_in]
    unfold Spec.hydrogen
    rw [hh2o, hfH]
    unfold nStoich; ring
  · rw [sum_oxygen_in]
    unfold Spec.oxygen
    rw [ho2, hco2, hh2o]
    unfold nStoich; ring

/-- Element balances of the stoichiometry equations, for every air ratio: with the unburnt share
`u` of the fuel (zero for air ratios ≥ 1) the atoms leaving the chamber are those entering minus
`u·n_H/4` carbon, `4·u·n_C` hydrogen and `2·u·n_stoich` oxygen atoms. -/
theorem C37_element_balance (h : Spec.Burnt d inl out spec fl) (h0 : 0 < Spec.airRatio d inl) :
    Spec.carbon d out = (inl.map (Spec.carbon d)).sum - Spec.unburnt d inl * (Spec.fuelHydrogen d inl / 4) ∧
    Spec.hydrogen d out = (inl.map (Spec.hydrogen d)).sum
      - Spec.unburnt d inl * (4 * Spec.fuelCarbon d inl) ∧
    Spec.oxygen d out = (inl.map (Spec.oxygen d)).sum
      - Spec.unburnt d inl * (2 * Spec.oxygenDemand d inl) :=
  comb_element_balance_aux h h0

/-- C37 (partial: air ratio at least one): carbon, hydrogen and oxygen atoms are conserved and no
fuel leaves the chamber, for every fuel mixture and every composition of the inlets. -/
theorem C37_elements_partial (h : Spec.Burnt d inl out spec fl) (h1 : 1 ≤ Spec.airRatio d inl) :
    Spec.carbon d out = (inl.map (Spec.carbon d)).sum ∧
    Spec.hydrogen d out = (inl.map (Spec.hydrogen d)).sum ∧
    Spec.oxygen d out = (inl.map (Spec.oxygen d)).sum ∧
    ∀ f ∈ d.fuels, out.m * out.x f = 0 := by
  have hu : Spec.unburnt d inl = 0 := by unfold Spec.unburnt; rw [if_neg (not_lt.2 h1)]
  obtain ⟨hC, hH, hO⟩ := C37_element_balance h (lt_of_lt_of_le one_pos h1)
  rw [hu] at hC hH hO
  simp only [zero_mul, sub_zero] at hC hH hO
  refine ⟨hC, hH, hO, fun f hf => ?_⟩
  have := h.fuel_out hf
  rw [hu, zero_mul, div_eq_zero_iff] at this
  exact this.resolve_right (h.data.Mf f hf)

theorem comb_rich_false_aux (h : Spec.Burnt d inl out spec fl) (h0 : 0 < Spec.airRatio d inl)
    (h1 : Spec.airRatio d inl < 1) :
    (0 < nH d inl → Spec.carbon d out < (inl.map (Spec.carbon d)).sum) ∧
    (0 < nC d inl → Spec.hydrogen d out < (inl.map (Spec.hydrogen d)).sum) ∧
    (0 < nStoich d inl → Spec.oxygen d out < (inl.map (Spec.oxygen d)).sum) := by
  have hu : 0 < Spec.unburnt d inl := by
    unfold Spec.unburnt; rw [if_pos h1]; linarith
  obtain ⟨hC, hH, hO⟩ := comb_element_balance_aux h h0
  rw [hC, hH, hO]
  refine ⟨fun hp => ?_, fun hp => ?_, fun hp => ?_⟩
  · have := mul_pos hu (div_pos hp (by norm_num : (0 : K) < 4)); linarith
  · have := mul_pos hu (mul_pos (by norm_num : (0 : K) < 4) hp); linarith
  · have := mul_pos hu (mul_pos (by norm_num : (0 : K) < 2) hp); linarith

/-- C37 does not hold for air ratios below one: whenever a fuel containing hydrogen (carbon) is
burnt, carbon (hydrogen) atoms and oxygen atoms disappear. -/
theorem C37_rich_false (h : Spec.Burnt d inl out spec fl) (h0 : 0 < Spec.airRatio d inl)
    (h1 : Spec.airRatio d inl < 1) :
    (0 < Spec.fuelHydrogen d inl → Spec.carbon d out < (inl.map (Spec.carbon d)).sum) ∧
    (0 < Spec.fuelCarbon d inl → Spec.hydrogen d out < (inl.map (Spec.hydrogen d)).sum) ∧
    (0 < Spec.oxygenDemand d inl → Spec.oxygen d out < (inl.map (Spec.oxygen d)).sum) :=
  comb_rich_false_aux h h0 h1

/-! ### Total mass -/

/-- Molar masses are composed of the masses `mC`, `mH`, `mO` of the atoms. -/
structure CombData.Atomic (d : CombData F K) (mC mH mO : K) : Prop where
  o2 : d.M d.o2 = 2 * mO
  co2 : d.M d.co2 = mC + 2 * mO
  h2o : d.M d.h2o = 2 * mH + mO
  fuel : ∀ f ∈ d.fuels, d.M f = d.C f * mC + d.H f * mH

theorem combDm_split (h : d.Ok) (lam : K) (f : F) : combDm d inl lam f =
    (if f = d.co2 then combDm d inl lam d.co2 else 0)
    + (if f = d.h2o then combDm d inl lam d.h2o else 0)
    + (if f = d.o2 then combDm d inl lam d.o2 else 0)
    + (if f ∈ d.fuels then combDm d inl lam f else 0) := by
  by_cases h1 : f = d.co2
  · subst h1; simp [h.ow, h.oo.symm, h.f1]
  by_cases h2 : f = d.h2o
  · subst h2; simp [h.ow.symm, h.oh.symm, h.f2]
  by_cases h3 : f = d.o2
  · subst h3; simp [h.oo, h.oh, h.f3]
  by_cases h4 : f ∈ d.fuels
  · simp [h1, h2, h3, h4]
  · simp only [h1, h2, h3, h4, if_false]
    unfold combDm
    rw [if_neg h1, if_neg h2, if_neg h3, if_neg h4]; ring

theorem comb_mass_balance_aux (h : Spec.Burnt d inl out spec fl) (h0 : 0 < Spec.airRatio d inl)
    {mC mH mO : K} (ha : d.Atomic mC mH mO) :
    out.m * ∑ f ∈ fl, out.x f = (inl.map (fun i => i.m * ∑ f ∈ fl, i.x f)).sum
      - Spec.unburnt d inl * (nH d inl / 4 * mC + 4 * nC d inl * mH + 2 * nStoich d inl * mO) := by
  have hs := h.lambda.1
  obtain ⟨ec, eh⟩ := excess_eq hs
  have e1 : out.m * ∑ f ∈ fl, out.x f = ∑ f ∈ fl, (inl.map (fun i => i.m * i.x f)).sum
      + ∑ f ∈ fl, combDm d inl (Spec.airRatio d inl) f := by
    rw [Finset.mul_sum, ← Finset.sum_add_distrib]
    exact Finset.sum_congr rfl (fun f hf => h.outlet hf)
  have e2 : (inl.map (fun i => i.m * ∑ f ∈ fl, i.x f)).sum
      = ∑ f ∈ fl, (inl.map (fun i => i.m * i.x f)).sum := by
    rw [← list_sum_finset]
    congr 1
    exact List.map_congr_left (fun i _ => Finset.mul_sum _ _ _)
  have e3 : ∑ f ∈ fl, combDm d inl (Spec.airRatio d inl) f
      = combDm d inl (Spec.airRatio d inl) d.co2 + combDm d inl (Spec.airRatio d inl) d.h2o
        + combDm d inl (Spec.airRatio d inl) d.o2
        + ∑ f ∈ d.fuels, combDm d inl (Spec.airRatio d inl) f := by
    rw [Finset.sum_congr rfl (fun f _ => combDm_split h.data (Spec.airRatio d inl) f),
      Finset.sum_add_distrib, Finset.sum_add_distrib, Finset.sum_add_distrib,
      Finset.sum_ite_eq' fl d.co2, Finset.sum_ite_eq' fl d.h2o, Finset.sum_ite_eq' fl d.o2,
      if_pos h.hc, if_pos h.hh, if_pos h.ho, Finset.sum_ite_mem, Finset.inter_eq_right.2 h.hf]
  have e4 : ∑ f ∈ d.fuels, combDm d inl (Spec.airRatio d inl) f
      = -(1 - Spec.unburnt d inl) * (nC d inl * mC + nH d inl * mH) := by
    unfold nC nH
    rw [Finset.sum_mul, Finset.sum_mul, ← Finset.sum_add_distrib, Finset.mul_sum]
    apply Finset.sum_congr rfl
    intro f hf
    rw [combDm_fuel h.data _ hf, fuelExc_eq h.data _ hf, ha.fuel f hf]
    unfold Spec.unburnt
    split <;> ring
  have e5 : combDm d inl (Spec.airRatio d inl) d.o2
      = -((1 - Spec.unburnt d inl) * nStoich d inl) * (2 * mO) := by
    have := o2_used h.data hs h0
    rw [div_eq_iff h.data.Mo] at this
    rw [this, ha.o2]
  rw [e1, e2, e3, e4, e5, combDm_co2, combDm_h2o h.data, ec, eh, ha.co2, ha.h2o]
  unfold nStoich
  ring

/-- C37, total mass, every air ratio: with molar masses composed of atomic masses, the mass leaving
the chamber is the mass entering, reduced by the mass of the atoms that disappear. -/
theorem C37_mass_balance (h : Spec.Burnt d inl out spec fl) (h0 : 0 < Spec.airRatio d inl)
    {mC mH mO : K} (ha : d.Atomic mC mH mO) :
    out.m * ∑ f ∈ fl, out.x f = (inl.map (fun i => i.m * ∑ f ∈ fl, i.x f)).sum
      - Spec.unburnt d inl * (Spec.fuelHydrogen d inl / 4 * mC + 4 * Spec.fuelCarbon d inl * mH + 2 * Spec.oxygenDemand d inl * mO) :=
  comb_mass_balance_aux h h0 ha

/-- C37, total mass (partial: air ratio at least one). -/
theorem C37_mass_partial (h : Spec.Burnt d inl out spec fl) (h1 : 1 ≤ Spec.airRatio d inl)
    {mC mH mO : K} (ha : d.Atomic mC mH mO) :
    out.m * ∑ f ∈ fl, out.x f = (inl.map (fun i => i.m * ∑ f ∈ fl, i.x f)).sum := by
  have := C37_mass_balance h (lt_of_lt_of_le one_pos h1) ha
  unfold Spec.unburnt at this
  rw [if_neg (not_lt.2 h1)] at this
  rw [this]; ring

theorem comb_fractions_aux (h : Spec.Burnt d inl out spec fl) (h0 : 0 < Spec.airRatio d inl)
    {mC mH mO : K} (ha : d.Atomic mC mH mO) (hx : ∀ i ∈ inl, ∑ f ∈ fl, i.x f = 1)
    (hm : combMassRes inl out = 0) (hpos : 0 < out.m) :
    (1 ≤ Spec.airRatio d inl → ∑ f ∈ fl, out.x f = 1) ∧
    (Spec.airRatio d inl < 1 → 0 < mC → 0 < mH → 0 < mO → 0 ≤ nC d inl → 0 ≤ nH d inl →
      0 < nStoich d inl → ∑ f ∈ fl, out.x f < 1) := by
  have e : (inl.map (fun i => i.m * ∑ f ∈ fl, i.x f)).sum = out.m := by
    have : inl.map (fun i => i.m * ∑ f ∈ fl, i.x f) = inl.map (fun i => i.m) :=
      List.map_congr_left (fun i hi => by rw [hx i hi, mul_one])
    rw [this]
    unfold combMassRes at hm
    exact sub_eq_zero.1 hm
  constructor
  · intro h1
    have := C37_mass_partial h h1 ha
    rw [e] at this
    exact mul_left_cancel₀ hpos.ne' (by rw [this, mul_one])
  · intro h1 hC hH hO hc0 hh0 hs0
    have := comb_mass_balance_aux h h0 ha
    rw [e] at this
    have hu : 0 < Spec.unburnt d inl := by
      unfold Spec.unburnt; rw [if_pos h1]; linarith
    have hp : 0 < nH d inl / 4 * mC + 4 * nC d inl * mH + 2 * nStoich d inl * mO := by
      have a1 : 0 ≤ nH d inl / 4 * mC := mul_nonneg (div_nonneg hh0 (by norm_num)) hC.le
      have a2 : 0 ≤ 4 * nC d inl * mH := mul_nonneg (mul_nonneg (by norm_num) hc0) hH.le
      have a3 : 0 < 2 * nStoich d inl * mO := mul_pos (mul_pos (by norm_num) hs0) hO
      linarith
    have := mul_pos hu hp
    by_contra hge
    have := mul_le_mul_of_nonneg_left (not_lt.1 hge) hpos.le
    rw [mul_one] at this
    linarith

/-- The consequence for compositions: if the mass fractions of all inlets sum to one and the mass
flow equation is satisfied, the mass fractions of the flue gas sum to one for air ratios of at least
one (and to less than one below it). -/
theorem C37_fractions (h : Spec.Burnt d inl out spec fl) (h0 : 0 < Spec.airRatio d inl)
    {mC mH mO : K} (ha : d.Atomic mC mH mO) (hx : ∀ i ∈ inl, ∑ f ∈ fl, i.x f = 1)
    (hm : combMassRes inl out = 0) (hpos : 0 < out.m) :
    (1 ≤ Spec.airRatio d inl → ∑ f ∈ fl, out.x f = 1) ∧
    (Spec.airRatio d inl < 1 → 0 < mC → 0 < mH → 0 < mO → 0 ≤ Spec.fuelCarbon d inl → 0 ≤ Spec.fuelHydrogen d inl →
      0 < Spec.oxygenDemand d inl → ∑ f ∈ fl, out.x f < 1) :=
  comb_fractions_aux h h0 ha hx hm hpos

/-! ### Energy -/

/-- Specification: enthalpy flow of a stream including the formation enthalpies of its fluids. -/
def Spec.formation (d : CombData F K) (hf : F → K) (s : CombStream F K) : K :=
  s.m * (s.h - s.href) + (s.m * s.x d.co2 / d.M d.co2 * hf d.co2
    + s.m * s.x d.h2o / d.M d.h2o * hf d.h2o + s.m * s.x d.o2 / d.M d.o2 * hf d.o2
    + ∑ f ∈ d.fuels, s.m * s.x f / d.M f * hf f)

/-- C60 (partial: air ratio at least one, adiabatic): with heating values from the formation
enthalpies, the energy balance equation of the combustion chamber is exactly the conservation of
enthalpy including formation enthalpies. -/
theorem C60_enthalpy_partial (h : Spec.Burnt d inl out spec fl) (h1 : 1 ≤ Spec.airRatio d inl)
    (hf : F → K) (hlhv : ∀ f ∈ d.fuels, d.LHV f = lhvOf d hf f) :
    combEnergyRes d inl out 1 = (inl.map (Spec.formation d hf)).sum - Spec.formation d hf out := by
  have hs := h.lambda.1
  have h0 : 0 < Spec.airRatio d inl := lt_of_lt_of_le one_pos h1
  have hu : Spec.unburnt d inl = 0 := by unfold Spec.unburnt; rw [if_neg (not_lt.2 h1)]
  obtain ⟨ec, eh⟩ := excess_eq hs
  rw [hu, zero_mul] at ec eh
  rw [mul_zero] at eh
  have hco2 : out.m * out.x d.co2 / d.M d.co2 = nIn d inl d.co2 + nC d inl := by
    rw [h.molar h.hc, combDm_co2, ec, mul_div_assoc, div_self h.data.Mc, mul_one, sub_zero]
  have hh2o : out.m * out.x d.h2o / d.M d.h2o = nIn d inl d.h2o + nH d inl / 2 := by
    rw [h.molar h.hh, combDm_h2o h.data, eh, mul_div_assoc, div_self h.data.Mh, mul_one, sub_zero]
  have ho2 : out.m * out.x d.o2 / d.M d.o2 = nIn d inl d.o2 - nStoich d inl := by
    rw [h.molar h.ho, o2_used h.data hs h0, hu]; ring
  have hti : combTi d inl out = -(nH d inl / 2 * hf d.h2o + nC d inl * hf d.co2
      - nStoich d inl * hf d.o2) + ∑ f ∈ d.fuels, nIn d inl f * hf f := by
    unfold combTi nStoich nH nC
    simp only [Finset.sum_mul, Finset.sum_div, add_mul, ← Finset.sum_add_distrib,
      ← Finset.sum_sub_distrib, ← Finset.sum_neg_distrib]
    apply Finset.sum_congr rfl
    intro f hf'
    have hm := h.data.Mf f hf'
    have hout : out.m * out.x f = 0 := (C37_elements_partial h h1).2.2.2 f hf'
    have hin : (inl.map (fun i => i.m * i.x f)).sum = nIn d inl f * d.M f := by
      rw [nIn_eq, div_mul_cancel₀ _ hm]
    rw [hout, hin, hlhv f hf']
    unfold lhvOf
    rw [sub_zero, mul_assoc, mul_div_cancel₀ _ hm]
    ring
  have hfo : ∑ f ∈ d.fuels, out.m * out.x f / d.M f * hf f = 0 := by
    apply Finset.sum_eq_zero
    intro f hf'
    rw [(C37_elements_partial h h1).2.2.2 f hf']; ring
  have hin : (inl.map (Spec.formation d hf)).sum
      = (inl.map (fun i => i.m * (i.h - i.href))).sum
        + (nIn d inl d.co2 * hf d.co2 + nIn d inl d.h2o * hf d.h2o + nIn d inl d.o2 * hf d.o2
        + ∑ f ∈ d.fuels, nIn d inl f * hf f) := by
    unfold Spec.formation
    rw [List.sum_map_add, List.sum_map_add, List.sum_map_add, List.sum_map_add,
      list_sum_finset, List.sum_map_mul_right, List.sum_map_mul_right, List.sum_map_mul_right]
    simp only [List.sum_map_mul_right]
    rfl
  rw [hin]
  unfold combEnergyRes Spec.formation
  rw [hti, hco2, hh2o, ho2, hfo]
  ring

/-- Diabatic chambers: reported efficiency and heat loss belong to the energy balance: the reported
efficiency is the one satisfying the equation, and released heat = flue gas enthalpy rise + loss. -/
theorem C60_diabatic (eta q : K) (h : diabaticReported d inl out = .ok (eta, q)) :
    (∀ v, combEnergyRes d inl out v = 0 ↔ v = eta) ∧
    combTi d inl out = out.m * (out.h - out.href)
      - (inl.map (fun i => i.m * (i.h - i.href))).sum - q := by
  unfold diabaticReported at h
  split at h
  · cases h
  next h0 =>
  have := Except.ok.inj h
  simp only [Prod.mk.injEq] at this
  obtain ⟨e1, e2⟩ := this
  subst e1
  constructor
  · intro v
    unfold combEnergyRes
    rw [eq_div_iff h0]
    constructor
    · intro h; linear_combination h
    · intro h; linear_combination h
  · rw [← e2]
    field_simp
    ring

/-! ### Example -/

/-- Methane (0) with O2 (1), CO2 (2), H2O (3) and N2 (4); molar masses 16, 32, 44, 18. -/
def exComb : CombData (Fin 5) ℚ where
  o2 := 1
  co2 := 2
  h2o := 3
  fuels := {0}
  C := fun _ => 1
  H := fun _ => 4
  M := fun f => [16, 32, 44, 18, 28].getD f.val 1
  LHV := fun _ => 50

/-- 1 kg/s of methane. -/
def exFuel : CombStream (Fin 5) ℚ := ⟨1, fun f => if f = 0 then 1 else 0, 3, 1⟩
/-- `m` kg/s of oxygen-nitrogen mixture, 20 % oxygen by mass. -/
def exAir (m : ℚ) : CombStream (Fin 5) ℚ :=
  ⟨m, fun f => if f = 1 then 1 / 5 else if f = 4 then 4 / 5 else 0, 2, 1⟩
/-- Flue gas for 40 kg/s air (twice the stoichiometric amount). -/
def exFlue : CombStream (Fin 5) ℚ :=
  ⟨41, fun f => [0, 4 / 41, 11 / 4 / 41, 9 / 4 / 41, 32 / 41].getD f.val 0, 5, 1⟩
/-- "Flue gas" solving the equations for 15 kg/s air (three quarters of the demand). -/
def exRich : CombStream (Fin 5) ℚ :=
  ⟨16, fun f => [1 / 4 / 16, 0, 11 / 8 / 16, 9 / 8 / 16, 12 / 16].getD f.val 0, 5, 1⟩

theorem exComb_ok : exComb.Ok := by
  constructor <;> decide +kernel

/-- Non-trivial case with excess air: all hypotheses hold, the air ratio is 2. -/
example : Spec.Burnt exComb [exFuel, exAir 40] exFlue none Finset.univ ∧
    Spec.airRatio exComb [exFuel, exAir 40] = 2 ∧ exComb.Atomic 12 1 16 ∧
    combMassRes [exFuel, exAir 40] exFlue = 0 := by
  refine ⟨⟨exComb_ok, ?_, ?_, ?_, ?_, ?_, ?_⟩, ?_, ⟨?_, ?_, ?_, ?_⟩, ?_⟩ <;> decide +kernel

/-- Non-trivial case with fuel excess: all equations are satisfied at an air ratio of 3/4, yet of
one sixteenth kmol/s carbon only three quarters leave the chamber. -/
theorem C37_rich_example : Spec.Burnt exComb [exFuel, exAir 15] exRich none Finset.univ ∧
    Spec.airRatio exComb [exFuel, exAir 15] = 3 / 4 ∧
    combMassRes [exFuel, exAir 15] exRich = 0 ∧
    Spec.carbon exComb exRich = 3 / 4 * ([exFuel, exAir 15].map (Spec.carbon exComb)).sum := by
  refine ⟨⟨exComb_ok, ?_, ?_, ?_, ?_, ?_, ?_⟩, ?_, ?_, ?_⟩ <;> decide +kernel

end Tespy
