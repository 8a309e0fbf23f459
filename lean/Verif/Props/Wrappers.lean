import Verif.Model.Wrappers
import Mathlib.Tactic.Linarith
import Mathlib.Tactic.NormNum
import Mathlib.Tactic.Ring
import Mathlib.Tactic.FieldSimp
import Mathlib.Algebra.Order.Field.Rat
/-
C78: the wrappers of the fluid property libraries return, for the same fluid, the same value in SI
units, whatever has been calculated before.
-/
namespace Tespy

namespace Spec

/-- A method of a wrapper with state: its result does not depend on the calls made before. -/
def HistoryFree {S α : Type} (f : Option S → Option S × LibRes α) : Prop :=
  ∀ before : Option S, (f before).2 = (f none).2

/-- The library iapws (MPa, kJ) describes the same fluid as the equation of state `e` (SI units):
the same inputs in other units lead to the same state, or to the same exception, and the
properties are the same in other units. -/
structure SameFluid {S K : Type} [Field K] (e : Eos S K) (l : Iapws S K) : Prop where
  hp : ∀ h p, l.find .hp (h / 1000) (p / 1000000) = e.find .hp h p
  ps : ∀ p s, l.find .ps (p / 1000000) (s / 1000) = e.find .ps p s
  pq : ∀ p q, l.find .pq (p / 1000000) q = e.find .pq p q
  pT : ∀ p T, l.find .pT (p / 1000000) T = e.find .pT p T
  qT : ∀ q T, l.find .qT q T = e.find .qT q T
  T : ∀ st, e.T st = l.T st
  p : ∀ st, e.p st = l.P st * 1000000
  h : ∀ st, e.h st = l.h st * 1000
  s : ∀ st, e.s st = l.s st * 1000
  rho : ∀ st, e.rho st = l.rho st
  visc : ∀ st, e.visc st = l.mu st
  pCrit : e.pCrit = l.pCrit * 1000000
  tCrit : e.tCrit = some l.tCrit
  liquid : ∀ st, e.phase st = .liquid ↔ l.phase st = .liquid
  gas : ∀ st, e.phase st = .gas ↔ l.phase st = .vapour
  twophase : ∀ st, e.phase st = .twophase ↔
    (l.phase st = .twoPhases ∨ l.phase st = .satVapor ∨ l.phase st = .satLiquid)
  xLiquid : ∀ st, e.phase st = .liquid → l.x st = 0
  xGas : ∀ st, e.phase st = .gas → l.x st = 1
  xTwo : ∀ st, e.phase st = .twophase → l.x st = e.q st

/-- What the critical point does to inputs: pressures above it are replaced by 99 % of it. -/
def clipped {K : Type} [Field K] [LinearOrder K] (crit x y : K) : Prop :=
  (x ≤ crit → y = x) ∧ (crit < x → y = crit * (99 / 100))

end Spec

section
variable {S K : Type} [Field K] [LinearOrder K]

omit [Field K] [LinearOrder K] in
theorem asRead_free {α : Type} (e : Eos S K) (i : StateInputs) (a b : K) (get : S → α) :
    Spec.HistoryFree (asRead e i a b get) := by
  intro as
  unfold asRead
  cases e.find i a b <;> rfl

omit [Field K] [LinearOrder K] in
theorem asRead_snd {α : Type} (e : Eos S K) (i : StateInputs) (a b : K) (get : S → α)
    (as : Option S) : (asRead e i a b get as).2 = (e.find i a b).map get := by
  unfold asRead
  cases e.find i a b <;> rfl

omit [Field K] [LinearOrder K] in
theorem iaRead_eq {α : Type} (l : Iapws S K) (i : StateInputs) (a b : K) (get : S → α) :
    iaRead l i a b get = (l.find i a b).map get := by
  unfold iaRead
  cases l.find i a b <;> rfl

theorem makeSubcritical_clipped (pc p : K) : Spec.clipped pc p (makeSubcritical pc p) := by
  unfold Spec.clipped makeSubcritical
  constructor
  · intro h; rw [if_neg (not_lt.mpr h)]
  · intro h; rw [if_pos h]

/-- C78: no method of the CoolProp wrapper depends on the calls made before it, although all share
one state object. -/
theorem C78_history (e : Eos S K) (x y z : K) :
    Spec.HistoryFree (cpTph e x y) ∧ Spec.HistoryFree (cpTps e x y) ∧
    Spec.HistoryFree (cpHpQ e x y) ∧ Spec.HistoryFree (cpHps e x y) ∧
    Spec.HistoryFree (cpHpT e x y) ∧ Spec.HistoryFree (cpHQT e x y) ∧
    Spec.HistoryFree (cpSQT e x y) ∧ Spec.HistoryFree (cpTsat e x) ∧
    Spec.HistoryFree (cpPsat e x) ∧ Spec.HistoryFree (cpQph e x y) ∧
    Spec.HistoryFree (cpPhase e x y) ∧ Spec.HistoryFree (cpDph e x y) ∧
    Spec.HistoryFree (cpDpT e x y) ∧ Spec.HistoryFree (cpDQT e x y) ∧
    Spec.HistoryFree (cpViscph e x y) ∧ Spec.HistoryFree (cpViscpT e x y) ∧
    Spec.HistoryFree (cpSph e x y) ∧ Spec.HistoryFree (cpSpT e x y) ∧
    Spec.HistoryFree (cpIsentropic e x y z) := by
  refine ⟨asRead_free _ _ _ _ _, asRead_free _ _ _ _ _, asRead_free _ _ _ _ _, asRead_free _ _ _ _ _, asRead_free _ _ _ _ _,
    asRead_free _ _ _ _ _, asRead_free _ _ _ _ _, asRead_free _ _ _ _ _, ?_, asRead_free _ _ _ _ _, asRead_free _ _ _ _ _,
    asRead_free _ _ _ _ _, asRead_free _ _ _ _ _, asRead_free _ _ _ _ _, asRead_free _ _ _ _ _, asRead_free _ _ _ _ _,
    asRead_free _ _ _ _ _, asRead_free _ _ _ _ _, ?_⟩
  · intro as
    unfold cpPsat
    cases e.tCrit with
    | none => rfl
    | some tc => exact asRead_free e .qT 0 _ e.p as
  · intro as
    unfold cpIsentropic cpSph cpHps asRead
    cases e.find .hp y x with
    | error er => rfl
    | ok st => dsimp only

/-- C78: what the methods of the CoolProp wrapper return: the property, in SI units, of the state
with the given inputs. -/
theorem C78_values (e : Eos S K) (x y : K) (as : Option S) :
    (cpTph e x y as).2 = (e.find .hp y x).map e.T ∧
    (cpTps e x y as).2 = (e.find .ps x y).map e.T ∧
    (cpHpQ e x y as).2 = (e.find .pq x y).map e.h ∧
    (cpHps e x y as).2 = (e.find .ps x y).map e.h ∧
    (cpHpT e x y as).2 = (e.find .pT x y).map e.h ∧
    (cpHQT e x y as).2 = (e.find .qT x y).map e.h ∧
    (cpSQT e x y as).2 = (e.find .qT x y).map e.s ∧
    (cpDph e x y as).2 = (e.find .hp y x).map e.rho ∧
    (cpDpT e x y as).2 = (e.find .pT x y).map e.rho ∧
    (cpDQT e x y as).2 = (e.find .qT x y).map e.rho ∧
    (cpViscph e x y as).2 = (e.find .hp y x).map e.visc ∧
    (cpViscpT e x y as).2 = (e.find .pT x y).map e.visc ∧
    (cpSph e x y as).2 = (e.find .hp y x).map e.s ∧
    (cpSpT e x y as).2 = (e.find .pT x y).map e.s ∧
    (∃ p, Spec.clipped e.pCrit x p ∧ (cpTsat e x as).2 = (e.find .pq p 0).map e.T) ∧
    (∀ tc, e.tCrit = some tc →
      ∃ T, Spec.clipped tc x T ∧ (cpPsat e x as).2 = (e.find .qT 0 T).map e.p) := by
  refine ⟨asRead_snd .., asRead_snd .., asRead_snd .., asRead_snd .., asRead_snd ..,
    asRead_snd .., asRead_snd .., asRead_snd .., asRead_snd .., asRead_snd .., asRead_snd ..,
    asRead_snd .., asRead_snd .., asRead_snd .., ⟨_, makeSubcritical_clipped _ _, asRead_snd ..⟩, ?_⟩
  intro tc htc
  refine ⟨makeSubcritical tc x, makeSubcritical_clipped _ _, ?_⟩
  unfold cpPsat
  rw [htc]
  exact asRead_snd ..

/-- C78: for the same fluid the iapws wrapper returns the same values as the CoolProp wrapper, for
every method except `p_sat` and, where the library reports a phase neither liquid nor gas nor two
phases, except `Q_ph` and `phase_ph`. Missing: `p_sat` (`C78_psat_false`) and these phases
(`C78_phase_false`). -/
theorem C78_backends_partial (e : Eos S K) (l : Iapws S K) (hs : Spec.SameFluid e l) (x y z : K)
    (as : Option S) :
    iaTph l x y = (cpTph e x y as).2 ∧ iaTps l x y = (cpTps e x y as).2 ∧
    iaHpQ l x y = (cpHpQ e x y as).2 ∧ iaHps l x y = (cpHps e x y as).2 ∧
    iaHpT l x y = (cpHpT e x y as).2 ∧ iaHQT l x y = (cpHQT e x y as).2 ∧
    iaSQT l x y = (cpSQT e x y as).2 ∧ iaTsat l x = (cpTsat e x as).2 ∧
    iaDph l x y = (cpDph e x y as).2 ∧ iaDpT l x y = (cpDpT e x y as).2 ∧
    iaDQT l x y = (cpDQT e x y as).2 ∧ iaViscph l x y = (cpViscph e x y as).2 ∧
    iaViscpT l x y = (cpViscpT e x y as).2 ∧ iaSph l x y = (cpSph e x y as).2 ∧
    iaSpT l x y = (cpSpT e x y as).2 ∧ iaIsentropic l x y z = (cpIsentropic e x y z as).2 ∧
    ((∀ st, e.find .hp y (makeSubcritical e.pCrit x) = .ok st → e.phase st ≠ .other) →
      iaQph l x y = (cpQph e x y as).2 ∧ iaPhase l x y = (cpPhase e x y as).2) := by
  have hT : e.T = l.T := funext hs.T
  have hh : e.h = fun st => l.h st * 1000 := funext hs.h
  have hss : e.s = fun st => l.s st * 1000 := funext hs.s
  have hrho : e.rho = l.rho := funext hs.rho
  have hmu : e.visc = l.mu := funext hs.visc
  have hSph : ∀ as : Option S, iaSph l x y = (cpSph e x y as).2 := by
    intro as
    rw [iaSph, cpSph, iaRead_eq, asRead_snd, hs.hp, hss]
  have hHps : ∀ (p s : K) (as : Option S), iaHps l p s = (cpHps e p s as).2 := by
    intro p s as
    rw [iaHps, cpHps, iaRead_eq, asRead_snd, hs.ps, hh]
  refine ⟨?_, ?_, ?_, hHps x y as, ?_, ?_, ?_, ?_, ?_, ?_, ?_, ?_, ?_, hSph as, ?_, ?_, ?_⟩
  · rw [iaTph, cpTph, iaRead_eq, asRead_snd, hs.hp, hT]
  · rw [iaTps, cpTps, iaRead_eq, asRead_snd, hs.ps, hT]
  · rw [iaHpQ, cpHpQ, iaRead_eq, asRead_snd, hs.pq, hh]
  · rw [iaHpT, cpHpT, iaRead_eq, asRead_snd, hs.pT, hh]
  · rw [iaHQT, cpHQT, iaRead_eq, asRead_snd, hs.qT, hh]
  · rw [iaSQT, cpSQT, iaRead_eq, asRead_snd, hs.qT, hss]
  · rw [iaTsat, cpTsat, iaRead_eq, asRead_snd, ← hs.pCrit, hs.pq, hT]
  · rw [iaDph, cpDph, iaRead_eq, asRead_snd, hs.hp, hrho]
  · rw [iaDpT, cpDpT, iaRead_eq, asRead_snd, hs.pT, hrho]
  · rw [iaDQT, cpDQT, iaRead_eq, asRead_snd, hs.qT, hrho]
  · rw [iaViscph, cpViscph, iaRead_eq, asRead_snd, hs.hp, hmu]
  · rw [iaViscpT, cpViscpT, iaRead_eq, asRead_snd, hs.pT, hmu]
  · rw [iaSpT, cpSpT, iaRead_eq, asRead_snd, hs.pT, hss]
  · unfold iaIsentropic cpIsentropic
    rw [hSph as]
    rcases hc : cpSph e x y as with ⟨as1, r⟩
    cases r with
    | error er => rfl
    | ok s => exact hHps z s as1
  · intro hph
    rw [iaQph, cpQph, iaPhase, cpPhase, iaRead_eq, iaRead_eq, asRead_snd, asRead_snd, ← hs.pCrit,
      hs.hp]
    cases hf : e.find .hp y (makeSubcritical e.pCrit x) with
    | error er => exact ⟨rfl, rfl⟩
    | ok st =>
      have h1 := hph st hf
      refine ⟨congrArg Except.ok ?_, congrArg Except.ok ?_⟩
      · unfold cpQuality
        cases hp : e.phase st with
        | twophase => exact hs.xTwo st hp
        | liquid => exact hs.xLiquid st hp
        | gas => exact hs.xGas st hp
        | other => exact absurd hp h1
      · show iaPhaseName (l.phase st) = cpPhaseName (e.phase st)
        cases hp : e.phase st with
        | twophase =>
          rcases (hs.twophase st).mp hp with h | h | h <;> rw [h] <;> rfl
        | liquid => rw [(hs.liquid st).mp hp]; rfl
        | gas => rw [(hs.gas st).mp hp]; rfl
        | other => exact absurd hp h1

/-- C78: the isentropic change of state keeps the entropy and reaches the pressure asked for, if
the library finds states with the inputs it is given. -/
theorem C78_isentropic (e : Eos S K)
    (hps : ∀ p s st, e.find .ps p s = .ok st → e.p st = p ∧ e.s st = s)
    (p1 h1 p2 h2 : K) (as : Option S) (hr : (cpIsentropic e p1 h1 p2 as).2 = .ok h2) :
    ∃ st1 st2, e.find .hp h1 p1 = .ok st1 ∧ e.s st2 = e.s st1 ∧ e.p st2 = p2 ∧ e.h st2 = h2 := by
  unfold cpIsentropic cpSph cpHps asRead at hr
  cases h : e.find .hp h1 p1 with
  | error er => rw [h] at hr; simp at hr
  | ok st1 =>
    rw [h] at hr
    dsimp only at hr
    cases h' : e.find .ps p2 (e.s st1) with
    | error er => rw [h'] at hr; simp at hr
    | ok st2 =>
      rw [h'] at hr
      have := hps _ _ _ h'
      exact ⟨st1, st2, rfl, this.2, this.1, Except.ok.inj hr⟩

/-- C78: the phase and the vapour content reported for the same pressure and enthalpy agree; the
vapour content is between 0 and 1, or -1 when the phase is not recognised. -/
theorem C78_phase_quality [IsStrictOrderedRing K] (e : Eos S K)
    (hq : ∀ st, e.phase st = .twophase → 0 ≤ e.q st ∧ e.q st ≤ 1)
    (p h : K) (as as' : Option S) (ph : String) (x : K)
    (hp : (cpPhase e p h as).2 = .ok ph) (hx : (cpQph e p h as').2 = .ok x) :
    (ph = "l" ∧ x = 0) ∨ (ph = "g" ∧ x = 1) ∨ (ph = "tp" ∧ 0 ≤ x ∧ x ≤ 1) ∨
      (ph = "state not recognised" ∧ x = -1) := by
  rw [cpPhase, asRead_snd] at hp
  rw [cpQph, asRead_snd] at hx
  cases hf : e.find .hp h (makeSubcritical e.pCrit p) with
  | error er => rw [hf] at hp; cases hp
  | ok st =>
    rw [hf] at hp hx
    have h1 : cpPhaseName (e.phase st) = ph := Except.ok.inj hp
    have h2 : cpQuality e st = x := Except.ok.inj hx
    unfold cpQuality at h2
    subst h1
    cases hc : e.phase st with
    | twophase =>
      rw [hc] at h2
      have := hq st hc
      exact Or.inr (Or.inr (Or.inl ⟨rfl, h2 ▸ this.1, h2 ▸ this.2⟩))
    | liquid => rw [hc] at h2; exact Or.inl ⟨rfl, h2.symm⟩
    | gas => rw [hc] at h2; exact Or.inr (Or.inl ⟨rfl, h2.symm⟩)
    | other => rw [hc] at h2; exact Or.inr (Or.inr (Or.inr ⟨rfl, h2.symm⟩))

/-- C78: above the critical pressure the saturation temperature, the vapour content and the phase
do not depend on the pressure. -/
theorem C78_supercritical [IsStrictOrderedRing K] (e : Eos S K) (hpc : 0 < e.pCrit) (p h : K)
    (hp : e.pCrit < p) (as as' : Option S) :
    (cpTsat e p as).2 = (cpTsat e (e.pCrit * (99 / 100)) as').2 ∧
    (cpQph e p h as).2 = (cpQph e (e.pCrit * (99 / 100)) h as').2 ∧
    (cpPhase e p h as).2 = (cpPhase e (e.pCrit * (99 / 100)) h as').2 := by
  have h1 : makeSubcritical e.pCrit p = e.pCrit * (99 / 100) := if_pos hp
  have h2 : makeSubcritical e.pCrit (e.pCrit * (99 / 100)) = e.pCrit * (99 / 100) := by
    apply if_neg
    rw [not_lt]
    nlinarith [hpc]
  unfold cpTsat cpQph cpPhase
  rw [h1, h2]
  simp only [asRead_snd]
  exact ⟨trivial, trivial, trivial⟩

/-- C78 is false as "the saturation temperature increases with pressure", for every fluid whose
saturation temperature does so up to the critical point. -/
theorem C78_monotone_false [IsStrictOrderedRing K] (e : Eos S K) (hpc : 0 < e.pCrit)
    (tsat : K → K)
    (hsat : ∀ p, 0 < p → p ≤ e.pCrit → (e.find .pq p 0).map e.T = .ok (tsat p))
    (hmono : ∀ p p', 0 < p → p < p' → p' ≤ e.pCrit → tsat p < tsat p') :
    ∃ p p' T T', p < p' ∧ (cpTsat e p none).2 = .ok T ∧ (cpTsat e p' none).2 = .ok T' ∧ T' < T := by
  have h99 : e.pCrit * (99 / 100) < e.pCrit := by nlinarith [hpc]
  have h0 : 0 < e.pCrit * (99 / 100) := by
    apply mul_pos hpc; norm_num
  refine ⟨e.pCrit, e.pCrit + 1, tsat e.pCrit, tsat (e.pCrit * (99 / 100)), by linarith, ?_, ?_,
    hmono _ _ h0 h99 le_rfl⟩
  · unfold cpTsat
    rw [asRead_snd]
    have : makeSubcritical e.pCrit e.pCrit = e.pCrit := if_neg (lt_irrefl _)
    rw [this]
    exact hsat _ hpc le_rfl
  · unfold cpTsat
    rw [asRead_snd]
    have : makeSubcritical e.pCrit (e.pCrit + 1) = e.pCrit * (99 / 100) := if_pos (by linarith)
    rw [this]
    exact hsat _ h0 h99.le

/-- C78 is false for the saturation pressure of the iapws wrapper: the temperature is divided by
1e6. If the library rejects temperatures below its minimum (water: 273.16 K) by an exception, no
temperature below a million times this value gives a saturation pressure. -/
theorem C78_psat_false [IsStrictOrderedRing K] (l : Iapws S K) (tMin : K)
    (hcrit : 0 < l.tCrit) (hcm : l.tCrit < tMin * 1000000)
    (hmin : ∀ q T, T < tMin → l.find .qT q T = .error .notImplemented) (T : K) :
    iaPsat l T = .error .notImplemented := by
  unfold iaPsat
  rw [iaRead_eq, hmin]
  · rfl
  · rw [div_lt_iff₀ (by norm_num)]
    split
    · nlinarith
    · rename_i h
      exact lt_of_le_of_lt (not_lt.mp h) hcm

omit [Field K] [LinearOrder K] in
/-- C78 is false for phases: a state whose phase the libraries do not name is reported by two
different words. -/
theorem C78_phase_false : cpPhaseName .other ≠ iaPhaseName .other := by decide

/-- C78 is false for incompressible fluids: `p_sat` raises `TypeError` for every temperature, as
there is no critical temperature to compare with. -/
theorem C78_incompressible_false (e : Eos S K) (hi : e.tCrit = none) (T : K) (as : Option S) :
    (cpPsat e T as).2 = .error .type := by
  unfold cpPsat
  rw [hi]

omit [Field K] [LinearOrder K] in
/-- C78 is false for the back end pyromat: saturation values, phases and viscosities are not
available for any substance, and for ideal gases neither is the entropy from pressure and
temperature, while the enthalpy is. -/
theorem C78_pyromat_false (m : Pyromat S K) (x y : K) :
    pmTsat m x = .error .notImplemented ∧ pmPsat m x = .error .notImplemented ∧
    pmPhase m x y = .error .notImplemented ∧ pmViscpT m x y = .error .notImplemented ∧
    (m.ig = true → pmSpT m x y = .error .notImplemented ∧ pmQph m x y = .error .notImplemented ∧
      pmHpT m x y = (m.find .pT x y).map m.h) := by
  refine ⟨rfl, rfl, rfl, rfl, ?_⟩
  intro hi
  unfold pmSpT pmQph pmHpT pmReadReal pmRead
  rw [hi]
  refine ⟨rfl, rfl, ?_⟩
  cases m.find .pT x y <;> rfl

end

/-! A concrete fluid: states are pairs of pressure and temperature, the enthalpy and the entropy are
linear, temperature of saturation rises with pressure, two states outside of the range. -/

/-- Pressure (Pa) and temperature (K) of a state of the concrete fluid. -/
abbrev WxState := ℚ × ℚ

/-- Concrete fluid: h = 1000 T + p / 1000, s = T - p / 1000000, saturation at T = 300 + p / 10000. -/
def wxEos : Eos WxState ℚ where
  find i a b := match i with
    | .hp => .ok (b, (a - b / 1000) / 1000)
    | .ps => .ok (a, b + a / 1000000)
    | .pq => .ok (a, 300 + a / 10000)
    | .pT => .ok (a, b)
    | .qT => if b < 300 then .error .notImplemented else .ok ((b - 300) * 10000, b)
  T st := st.2
  p st := st.1
  h st := 1000 * st.2 + st.1 / 1000
  s st := st.2 - st.1 / 1000000
  rho st := 1000 - st.2
  visc st := 1 / 1000
  q _ := 0
  phase st := if st.2 < 300 + st.1 / 10000 then .liquid else
    if 300 + st.1 / 10000 < st.2 then .gas else .twophase
  pCrit := 2000000
  tCrit := some 500

/-- The same fluid in the units of iapws. -/
def wxIapws : Iapws WxState ℚ where
  find i a b := match i with
    | .hp => .ok (b * 1000000, (a * 1000 - b * 1000000 / 1000) / 1000)
    | .ps => .ok (a * 1000000, b * 1000 + a * 1000000 / 1000000)
    | .pq => .ok (a * 1000000, 300 + a * 1000000 / 10000)
    | .pT => .ok (a * 1000000, b)
    | .qT => if b < 300 then .error .notImplemented else .ok ((b - 300) * 10000, b)
  T st := st.2
  P st := st.1 / 1000000
  h st := (1000 * st.2 + st.1 / 1000) / 1000
  s st := (st.2 - st.1 / 1000000) / 1000
  rho st := 1000 - st.2
  mu st := 1 / 1000
  x st := if st.2 < 300 + st.1 / 10000 then 0 else if 300 + st.1 / 10000 < st.2 then 1 else 0
  phase st := if st.2 < 300 + st.1 / 10000 then .liquid else
    if 300 + st.1 / 10000 < st.2 then .vapour else .twoPhases
  pCrit := 2
  tCrit := 500

theorem wxSame : Spec.SameFluid wxEos wxIapws where
  hp h p := by
    simp only [wxEos, wxIapws]
    congr 2 <;> ring_nf
  ps p s := by
    simp only [wxEos, wxIapws]
    congr 2 <;> ring_nf
  pq p q := by
    simp only [wxEos, wxIapws]
    congr 2 <;> ring_nf
  pT p T := by
    simp only [wxEos, wxIapws]
    congr 2 <;> ring_nf
  qT q T := rfl
  T st := rfl
  p st := by simp only [wxEos, wxIapws]; ring
  h st := by simp only [wxEos, wxIapws]; ring
  s st := by simp only [wxEos, wxIapws]; ring
  rho st := rfl
  visc st := rfl
  pCrit := by simp only [wxEos, wxIapws]; norm_num
  tCrit := rfl
  liquid st := by
    simp only [wxEos, wxIapws]
    split
    · simp
    · split <;> simp
  gas st := by
    simp only [wxEos, wxIapws]
    split
    · simp
    · split <;> simp
  twophase st := by
    simp only [wxEos, wxIapws]
    split
    · simp
    · split <;> simp
  xLiquid st := by
    simp only [wxEos, wxIapws]
    split
    · simp
    · split <;> simp
  xGas st := by
    simp only [wxEos, wxIapws]
    split
    · simp
    · split <;> simp
  xTwo st := by
    simp only [wxEos, wxIapws]
    split
    · simp
    · split <;> simp

/-- The concrete fluid meets the hypotheses: phases are always recognised, states found from
pressure and entropy have these values, the vapour content is within its range. -/
example : (∀ y p st, wxEos.find .hp y p = .ok st → wxEos.phase st ≠ .other) ∧
    (∀ p s st, wxEos.find .ps p s = .ok st → wxEos.p st = p ∧ wxEos.s st = s) ∧
    (∀ st, wxEos.phase st = .twophase → 0 ≤ wxEos.q st ∧ wxEos.q st ≤ 1) := by
  refine ⟨?_, ?_, ?_⟩
  · intro y p st _
    simp only [wxEos]
    split
    · simp
    · split <;> simp
  · intro p s st h
    simp only [wxEos, Except.ok.injEq] at h
    subst h
    simp only [wxEos]
    exact ⟨trivial, by ring⟩
  · intro st _
    simp [wxEos]

/-- ... the saturation temperature rises up to the critical pressure. -/
example : ∃ p p' T T', p < p' ∧ (cpTsat wxEos p none).2 = .ok T ∧
    (cpTsat wxEos p' none).2 = .ok T' ∧ T' < T :=
  C78_monotone_false wxEos (by norm_num [wxEos]) (fun p => 300 + p / 10000)
    (fun _ _ _ => rfl) (fun p p' _ h _ => by
      have : p / 10000 < p' / 10000 := by linarith
      linarith)

/-- ... the library rejects temperatures below 300 K, so that the saturation pressure at 400 K is
1000000 Pa with CoolProp and an exception with iapws. -/
example : (cpPsat wxEos 400 none).2 = .ok 1000000 ∧ iaPsat wxIapws 400 = .error .notImplemented :=
  ⟨by decide +kernel, C78_psat_false wxIapws 300 (by norm_num [wxIapws]) (by norm_num [wxIapws])
    (fun _ T hT => if_pos hT) 400⟩

end Tespy
