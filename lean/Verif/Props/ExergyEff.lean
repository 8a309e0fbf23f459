import Verif.Props.Exergy
import Mathlib.Tactic.FieldSimp
import Mathlib.Tactic.Positivity
/-
C42: reported exergetic efficiency and exergy destruction of all components.
-/
namespace Tespy
variable {K : Type} [Field K] [LinearOrder K] [IsStrictOrderedRing K]

namespace Spec

/-- Reported values of a component fit together: with fuel and product the destruction is their
difference and the efficiency is product per fuel, no number if the fuel is zero; without fuel or
product there is no efficiency. -/
def EfficiencyOk (r : ExRes K) : Prop :=
  (∀ f p, r.EF = some f → r.EP = some p →
    r.ED = some (f - p) ∧ r.eps = if f = 0 then none else some (p / f)) ∧
  (r.EF = none ∨ r.EP = none → r.eps = none)

/-- Without product all of the fuel is destroyed. -/
def Dissipates (r : ExRes K) : Prop := ∀ f, r.EF = some f → r.EP = none → r.ED = some f

end Spec

theorem exClose_eff (EF EP : Option K) (b : Option (EBus K)) :
    Spec.EfficiencyOk (exClose EF EP b) := by
  constructor
  · intro f p hf hp
    simp only [exClose] at hf hp
    subst hf hp
    simp only [exClose, nsub, calcEpsilon, ndiv, Option.some.injEq]
    exact ⟨trivial, trivial⟩
  · intro h
    simp only [exClose] at h ⊢
    unfold calcEpsilon
    rcases h with h | h <;> subst h
    · simp only [reduceCtorEq, if_false]; cases EP <;> rfl
    · split
      · rfl
      · rfl

theorem exCloseNan_eff (EF EP : Option K) (b : Option (EBus K)) :
    Spec.EfficiencyOk (exCloseNan EF EP b) ∧ Spec.Dissipates (exCloseNan EF EP b) := by
  cases EP with
  | some p =>
    refine ⟨exClose_eff EF (some p) b, fun f _ hp => ?_⟩
    simp [exCloseNan, exClose] at hp
  | none =>
    refine ⟨⟨fun f p _ hp => ?_, fun _ => ?_⟩, fun f hf _ => ?_⟩
    · simp [exCloseNan] at hp
    · simp only [exCloseNan, calcEpsilon]; split <;> rfl
    · simpa [exCloseNan] using hf

/-- C42: the exergetic efficiency of every component is product per fuel and the destruction is
fuel minus product, in all cases of the balances. -/
theorem C42_efficiency (T0 P Q : K) (d : Bool) (i o i1 i2 o1 o2 o3 : ExStream K)
    (inl : List (ExStream K)) :
    Spec.EfficiencyOk (pumpExergy T0 P i o) ∧ Spec.EfficiencyOk (turbineExergy T0 P i o) ∧
    Spec.EfficiencyOk (valveExergy T0 i o) ∧ Spec.EfficiencyOk (hexExergy T0 i1 i2 o1 o2) ∧
    Spec.EfficiencyOk (simpleHexExergy T0 Q d i o) ∧ Spec.EfficiencyOk (mergeExergy T0 inl o) ∧
    Spec.EfficiencyOk (drumExergy i1 i2 o1 o2) ∧ Spec.EfficiencyOk (combustionExergy d i1 i2 o) ∧
    Spec.EfficiencyOk (electrolyzerExergy P i1 i2 o1 o2 o3) := by
  refine ⟨?_, ?_, ?_, ?_, ?_, ?_, exClose_eff _ _ _, exClose_eff _ _ _, exClose_eff _ _ _⟩
  · unfold pumpExergy; split_ifs <;> exact exClose_eff _ _ _
  · unfold turbineExergy; split_ifs <;> exact exClose_eff _ _ _
  · unfold valveExergy; split_ifs <;> exact (exCloseNan_eff _ _ _).1
  · unfold hexExergy; split_ifs <;> exact (exCloseNan_eff _ _ _).1
  · unfold simpleHexExergy; split_ifs <;> exact (exCloseNan_eff _ _ _).1
  · unfold mergeExergy; split_ifs <;> exact exClose_eff _ _ _

/-- C42: valves and heat exchangers without product destroy all of the fuel. -/
theorem C42_dissipative (T0 Q : K) (d : Bool) (i o i1 i2 o1 o2 : ExStream K) :
    Spec.Dissipates (valveExergy T0 i o) ∧ Spec.Dissipates (hexExergy T0 i1 i2 o1 o2) ∧
    Spec.Dissipates (simpleHexExergy T0 Q d i o) := by
  refine ⟨?_, ?_, ?_⟩
  · unfold valveExergy; split_ifs <;> exact (exCloseNan_eff _ _ _).2
  · unfold hexExergy; split_ifs <;> exact (exCloseNan_eff _ _ _).2
  · unfold simpleHexExergy; split_ifs <;> exact (exCloseNan_eff _ _ _).2

/-- C42: with positive fuel, product and destruction not negative the efficiency is between zero
and one, and it is one minus the share of the destruction. -/
theorem C42_efficiency_range (r : ExRes K) (h : Spec.EfficiencyOk r) (f p q : K)
    (hf : r.EF = some f) (hp : r.EP = some p) (hq : r.ED = some q) (h0 : 0 < f) (h1 : 0 ≤ p)
    (h2 : 0 ≤ q) : ∃ e, r.eps = some e ∧ 0 ≤ e ∧ e ≤ 1 ∧ e = 1 - q / f := by
  obtain ⟨hd, he⟩ := h.1 f p hf hp
  rw [hq] at hd
  have hd' := Option.some.inj hd
  rw [if_neg h0.ne'] at he
  refine ⟨p / f, he, by positivity, ?_, ?_⟩
  · rw [div_le_one h0]; linarith
  · rw [hd']; field_simp; ring

/- the cases occur: a pump with product and fuel, a throttle without product -/
example : (pumpExergy (300 : ℚ) 10 ⟨310, 1, 0, 0, 1, 1, 0⟩ ⟨320, 1, 0, 0, 2, 5, 0⟩).eps
    = some (1 / 2) ∧
    (valveExergy (300 : ℚ) ⟨310, 1, 0, 0, 3, 5, 0⟩ ⟨305, 1, 0, 0, 2, 2, 0⟩).ED = some 4 := by
  constructor <;> decide +kernel

end Tespy
