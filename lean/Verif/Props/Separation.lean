import Verif.Props.Balance
import Mathlib.Algebra.Order.Field.Basic
import Mathlib.Algebra.Order.Field.Rat
import Mathlib.Tactic.Linarith
import Mathlib.Tactic.LinearCombination
import Mathlib.Tactic.NormNum

/-!
C116: droplet separators and drums divide a flow by its vapour content.
-/
namespace Tespy

/-! ### Specification -/

/-- Enthalpy of saturated liquid at the inlet pressure, with the composition of the liquid outlet. -/
def Spec.satLiquid {K : Type} (F : PropFuncs K) (s : EqState K) (i o0 : Port) : K := F.hPQ (s.xv o0) (s.pv i) false
/-- Enthalpy of saturated steam at the inlet pressure, with the composition of the steam outlet. -/
def Spec.satSteam {K : Type} (F : PropFuncs K) (s : EqState K) (i o1 : Port) : K := F.hPQ (s.xv o1) (s.pv i) true

section
variable {K : Type} [CommRing K]

/-- C116: the lever rule at every solved droplet separator. -/
theorem C116_lever (F : PropFuncs K) (s : EqState K) (i o0 o1 : Port)
    (h : Spec.Solved F s (.dropletSeparator i o0 o1)) :
    s.mv o1 * (Spec.satSteam F s i o1 - Spec.satLiquid F s i o0) = s.mv i * (s.hv i - Spec.satLiquid F s i o0) ∧
    s.mv o0 * (Spec.satSteam F s i o1 - Spec.satLiquid F s i o0) = s.mv i * (Spec.satSteam F s i o1 - s.hv i) := by
  obtain ⟨hm, he, hp, h0, h1⟩ := C36_droplet_separator F s i o0 o1 h
  have p0 : s.pv o0 = s.pv i := hp _ (by simp) _ (by simp)
  have p1 : s.pv o1 = s.pv i := hp _ (by simp) _ (by simp)
  rw [p0] at h0
  rw [p1] at h1
  unfold Spec.satSteam Spec.satLiquid
  rw [← h0, ← h1]
  simp only [Spec.MassBalance, Spec.EnergyBalance, List.map_cons, List.map_nil, List.sum_cons, List.sum_nil,
    add_zero] at hm he
  constructor
  · linear_combination s.hv o0 * hm - he
  · linear_combination he - s.hv o1 * hm

/-- C116: the steam leaving a drum is what the inlets bring above saturated liquid. -/
theorem C116_drum_steam (F : PropFuncs K) (s : EqState K) (i0 i1 o0 o1 : Port) (hb : i1.m = o0.m → i0.m = o1.m)
    (h : Spec.Solved F s (.drum i0 i1 o0 o1)) :
    s.mv o1 * (Spec.satSteam F s i0 o1 - Spec.satLiquid F s i0 o0) =
      s.mv i0 * (s.hv i0 - Spec.satLiquid F s i0 o0) + s.mv i1 * (s.hv i1 - Spec.satLiquid F s i0 o0) := by
  obtain ⟨hm, he, hp, h0, h1⟩ := C36_drum F s i0 i1 o0 o1 hb h
  have p0 : s.pv o0 = s.pv i0 := hp _ (by simp) _ (by simp)
  have p1 : s.pv o1 = s.pv i0 := hp _ (by simp) _ (by simp)
  rw [p0] at h0
  rw [p1] at h1
  unfold Spec.satSteam Spec.satLiquid
  rw [← h0, ← h1]
  simp only [Spec.MassBalance, Spec.EnergyBalance, List.map_cons, List.map_nil, List.sum_cons, List.sum_nil,
    add_zero] at hm he
  linear_combination s.hv o0 * hm - he

/-- C116: in a drum with a circulation of constant flow the feed is turned into steam by the heat the circulation takes
up above saturated liquid. -/
theorem C116_drum_circulation (F : PropFuncs K) (s : EqState K) (i0 i1 o0 o1 : Port) (hb : i1.m = o0.m → i0.m = o1.m)
    (hc : s.mv i1 = s.mv o0) (h : Spec.Solved F s (.drum i0 i1 o0 o1)) :
    s.mv o1 = s.mv i0 ∧
    s.mv i0 * (Spec.satSteam F s i0 o1 - s.hv i0) = s.mv i1 * (s.hv i1 - Spec.satLiquid F s i0 o0) := by
  have hs := C116_drum_steam F s i0 i1 o0 o1 hb h
  obtain ⟨hm, -, -, -, -⟩ := C36_drum F s i0 i1 o0 o1 hb h
  simp only [Spec.MassBalance, List.map_cons, List.map_nil, List.sum_cons, List.sum_nil, add_zero] at hm
  have e : s.mv o1 = s.mv i0 := by linear_combination -hm + hc
  rw [e] at hs
  exact ⟨e, by linear_combination hs⟩
end

section
variable {K : Type} [Field K] [LinearOrder K] [IsStrictOrderedRing K]

/-- Vapour content of a stream of enthalpy `h` between saturated liquid and steam. -/
def Spec.vapourContent (hl hg h : K) : K := (h - hl) / (hg - hl)

/-- C116: the share of the flow that leaves as steam is the vapour content of the inlet, the rest leaves as liquid. -/
theorem C116_content (F : PropFuncs K) (s : EqState K) (i o0 o1 : Port)
    (h : Spec.Solved F s (.dropletSeparator i o0 o1)) (hlt : Spec.satLiquid F s i o0 < Spec.satSteam F s i o1) :
    s.mv o1 = s.mv i * Spec.vapourContent (Spec.satLiquid F s i o0) (Spec.satSteam F s i o1) (s.hv i) ∧
    s.mv o0 = s.mv i * (1 - Spec.vapourContent (Spec.satLiquid F s i o0) (Spec.satSteam F s i o1) (s.hv i)) := by
  obtain ⟨h1, h0⟩ := C116_lever F s i o0 o1 h
  have hne : Spec.satSteam F s i o1 - Spec.satLiquid F s i o0 ≠ 0 := (sub_pos.2 hlt).ne'
  unfold Spec.vapourContent
  rw [one_sub_div hne, ← mul_div_assoc, ← mul_div_assoc, eq_div_iff hne, eq_div_iff hne]
  exact ⟨h1, by linear_combination h0⟩

/-- C116: both outlets of a separator carry flow in flow direction exactly if the inlet is two-phase or saturated. -/
theorem C116_two_phase_partial (F : PropFuncs K) (s : EqState K) (i o0 o1 : Port)
    (h : Spec.Solved F s (.dropletSeparator i o0 o1)) (hlt : Spec.satLiquid F s i o0 < Spec.satSteam F s i o1)
    (hm : 0 < s.mv i) :
    (0 ≤ s.mv o1 ↔ Spec.satLiquid F s i o0 ≤ s.hv i) ∧ (0 ≤ s.mv o0 ↔ s.hv i ≤ Spec.satSteam F s i o1) := by
  obtain ⟨h1, h0⟩ := C116_lever F s i o0 o1 h
  have hpos := sub_pos.2 hlt
  constructor
  · rw [← mul_nonneg_iff_of_pos_right hpos, h1, mul_nonneg_iff_of_pos_left hm, sub_nonneg]
  · rw [← mul_nonneg_iff_of_pos_right hpos, h0, mul_nonneg_iff_of_pos_left hm, sub_nonneg]

/-- C116: a drum fed with less than saturated steam needs a circulation that comes back above saturated liquid. -/
theorem C116_drum_heated (F : PropFuncs K) (s : EqState K) (i0 i1 o0 o1 : Port) (hb : i1.m = o0.m → i0.m = o1.m)
    (hc : s.mv i1 = s.mv o0) (h : Spec.Solved F s (.drum i0 i1 o0 o1)) (h0 : 0 < s.mv i0) (h1 : 0 < s.mv i1) :
    s.hv i0 < Spec.satSteam F s i0 o1 ↔ Spec.satLiquid F s i0 o0 < s.hv i1 := by
  have e := (C116_drum_circulation F s i0 i1 o0 o1 hb hc h).2
  rw [← sub_pos, ← mul_pos_iff_of_pos_left h0, e, mul_pos_iff_of_pos_left h1, sub_pos]

/-- C116: the flow of the circulation follows from the feed and the states. -/
theorem C116_circulation_flow (F : PropFuncs K) (s : EqState K) (i0 i1 o0 o1 : Port) (hb : i1.m = o0.m → i0.m = o1.m)
    (hc : s.mv i1 = s.mv o0) (h : Spec.Solved F s (.drum i0 i1 o0 o1))
    (hne : s.hv i1 ≠ Spec.satLiquid F s i0 o0) :
    s.mv i1 = s.mv i0 * (Spec.satSteam F s i0 o1 - s.hv i0) / (s.hv i1 - Spec.satLiquid F s i0 o0) := by
  rw [eq_div_iff (sub_ne_zero.2 hne)]
  exact (C116_drum_circulation F s i0 i1 o0 o1 hb hc h).2.symm
end

/-- A separator fed with superheated steam, state of the equations. -/
def exSuper : EqState ℚ :=
  exState (fun i => if i = 0 then 2 else if i = 1 then -2 else 4) (fun _ => 4)
    (fun i => if i = 0 then 6 else if i = 1 then 4 else 5) (fun _ _ => 1) (fun _ => ["water"]) (fun _ => []) (fun _ => true)

/-- C116 is false for the outlets of a separator: fed with superheated steam it is solved with a flow of liquid against
the flow direction. -/
theorem C116_superheated_false : ∃ (F : PropFuncs ℚ) (s : EqState ℚ) (i o0 o1 : Port),
    Spec.Solved F s (.dropletSeparator i o0 o1) ∧ Spec.satLiquid F s i o0 < Spec.satSteam F s i o1 ∧ 0 < s.mv i ∧
    s.mv o0 < 0 ∧ s.mv i < s.mv o1 := by
  refine ⟨exProps, exSuper, port 0, port 1, port 2, ⟨[0, 0, 0, 0, 0, 0], by decide +kernel, by simp⟩, ?_, ?_, ?_, ?_⟩ <;>
    decide +kernel

-- non-vacuity: a separator with vapour content 1/2 and a drum with circulation
example : ∃ (s : EqState ℚ) (i o0 o1 : Port), Spec.Solved exProps s (.dropletSeparator i o0 o1) ∧
    Spec.satLiquid exProps s i o0 < Spec.satSteam exProps s i o1 ∧ 0 < s.mv i ∧
    Spec.vapourContent (Spec.satLiquid exProps s i o0) (Spec.satSteam exProps s i o1) (s.hv i) = 1 / 2 := by
  refine ⟨exState (fun i => if i = 0 then 2 else 1) (fun _ => 4) (fun i => if i = 0 then 9/2 else if i = 1 then 4 else 5)
    (fun _ _ => 1) (fun _ => ["water"]) (fun _ => []) (fun _ => true), port 0, port 1, port 2,
    ⟨[0, 0, 0, 0, 0, 0], by decide +kernel, by simp⟩, ?_, ?_, ?_⟩ <;> decide +kernel

example : Spec.Solved exProps exDrumState2 (.drum (port 0) (port 1) (port 2) (port 3)) ∧
    ((port 1).m = (port 2).m → (port 0).m = (port 3).m) ∧ exDrumState2.mv (port 1) = exDrumState2.mv (port 2) ∧
    exDrumState2.hv (port 1) ≠ Spec.satLiquid exProps exDrumState2 (port 0) (port 2) ∧ 0 < exDrumState2.mv (port 0) ∧
    0 < exDrumState2.mv (port 1) := by
  refine ⟨⟨[0, 0, 0, 0, 0, 0, 0], by decide +kernel, by simp⟩, ?_, ?_, ?_, ?_, ?_⟩ <;> decide +kernel

end Tespy
