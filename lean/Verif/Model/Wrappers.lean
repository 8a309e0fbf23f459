import Mathlib.Algebra.Order.Field.Basic
/-
Wrappers of the fluid property libraries (tools/fluid_properties/wrappers.py). The libraries
themselves (CoolProp, iapws, pyromat) are parameters: a fluid has an abstract type `S` of
thermodynamic states, states are found from two inputs, and properties are functions of the state.
-/
namespace Tespy

/-- Exceptions of wrappers and libraries (wrappers.py 59-121). -/
inductive LibErr
  | value | type | notImplemented
  deriving DecidableEq, Repr

/-- Result of a call of a wrapper (wrappers.py 59-121). -/
abbrev LibRes (α : Type) := Except LibErr α

/-- Pairs of inputs of `AbstractState.update` used by the wrapper (wrappers.py 191-283). -/
inductive StateInputs
  | hp | ps | pq | pT | qT
  deriving DecidableEq, Repr

/-- Phases of CoolProp distinguished by the wrapper (wrappers.py 235-255). -/
inductive CPhase
  | twophase | liquid | gas | other
  deriving DecidableEq, Repr

/-- Equation of state of a pure fluid in SI units, as provided by CoolProp. `find` is `update`
(a state or an exception). `pCrit`, `tCrit` are the critical values the wrapper has stored
(`tCrit = none` is `None`, back end INCOMP, wrappers.py 151-160). -/
structure Eos (S K : Type) where
  find : StateInputs → K → K → LibRes S
  T : S → K
  p : S → K
  h : S → K
  s : S → K
  rho : S → K
  visc : S → K
  q : S → K
  phase : S → CPhase
  pCrit : K
  tCrit : Option K

section coolprop
variable {S K : Type} [Field K] [LinearOrder K]

/-- A call: the state object `AS` before (`none`: not updated yet), the state object after and the
result (wrappers.py 188-283). -/
abbrev AsCall (S K : Type) := Option S → Option S × LibRes K

/-- `self.AS.update(inputs, a, b)` followed by reading a property (wrappers.py 191-283). If
`update` raises an exception the state object is left as it was. -/
def asRead {α : Type} (e : Eos S K) (i : StateInputs) (a b : K) (get : S → α) :
    Option S → Option S × LibRes α := fun as =>
  match e.find i a b with
  | .error er => (as, .error er)
  | .ok st => (some st, .ok (get st))

/-- `_make_p_subcritical` (wrappers.py 177-180, 340-343) -/
def makeSubcritical (pCrit p : K) : K := if pCrit < p then pCrit * (99 / 100) else p

/-- `CoolPropWrapper.T_ph`, `T_ps`, `h_pQ`, `h_ps`, `h_pT`, `h_QT`, `s_QT` (wrappers.py 191-217) -/
def cpTph (e : Eos S K) (p h : K) : AsCall S K := asRead e .hp h p e.T
/-- `T_ps` of the CoolProp wrapper, wrappers.py 195-197. -/
def cpTps (e : Eos S K) (p s : K) : AsCall S K := asRead e .ps p s e.T
/-- `h_pQ` of the CoolProp wrapper, wrappers.py 199-201. -/
def cpHpQ (e : Eos S K) (p q : K) : AsCall S K := asRead e .pq p q e.h
/-- `h_ps` of the CoolProp wrapper, wrappers.py 203-205. -/
def cpHps (e : Eos S K) (p s : K) : AsCall S K := asRead e .ps p s e.h
/-- `h_pT` of the CoolProp wrapper, wrappers.py 207-209. -/
def cpHpT (e : Eos S K) (p T : K) : AsCall S K := asRead e .pT p T e.h
/-- `h_QT` of the CoolProp wrapper, wrappers.py 211-213. -/
def cpHQT (e : Eos S K) (q T : K) : AsCall S K := asRead e .qT q T e.h
/-- `s_QT` of the CoolProp wrapper, wrappers.py 215-217. -/
def cpSQT (e : Eos S K) (q T : K) : AsCall S K := asRead e .qT q T e.s

/-- `CoolPropWrapper.T_sat` (wrappers.py 219-222) -/
def cpTsat (e : Eos S K) (p : K) : AsCall S K :=
  asRead e .pq (makeSubcritical e.pCrit p) 0 e.T

/-- `CoolPropWrapper.p_sat` (wrappers.py 224-229): comparing with `None` raises `TypeError`. -/
def cpPsat (e : Eos S K) (T : K) : AsCall S K := fun as =>
  match e.tCrit with
  | none => (as, .error .type)
  | some tc => asRead e .qT 0 (if tc < T then tc * (99 / 100) else T) e.p as

/-- quality from state and phase (wrappers.py 235-242) -/
def cpQuality (e : Eos S K) (st : S) : K :=
  match e.phase st with
  | .twophase => e.q st
  | .liquid => 0
  | .gas => 1
  | .other => -1

/-- `CoolPropWrapper.Q_ph` (wrappers.py 231-242) -/
def cpQph (e : Eos S K) (p h : K) : AsCall S K :=
  asRead e .hp h (makeSubcritical e.pCrit p) (cpQuality e)

/-- name of the phase (wrappers.py 248-255) -/
def cpPhaseName : CPhase → String
  | .twophase => "tp"
  | .liquid => "l"
  | .gas => "g"
  | .other => "state not recognised"

/-- `CoolPropWrapper.phase_ph` (wrappers.py 244-255) -/
def cpPhase (e : Eos S K) (p h : K) : Option S → Option S × LibRes String :=
  asRead e .hp h (makeSubcritical e.pCrit p) (fun st => cpPhaseName (e.phase st))

/-- `CoolPropWrapper.d_ph`, `d_pT`, `d_QT`, `viscosity_ph`, `viscosity_pT`, `s_ph`, `s_pT`
(wrappers.py 257-283) -/
def cpDph (e : Eos S K) (p h : K) : AsCall S K := asRead e .hp h p e.rho
/-- `d_pT` of the CoolProp wrapper, wrappers.py 261-263. -/
def cpDpT (e : Eos S K) (p T : K) : AsCall S K := asRead e .pT p T e.rho
/-- `d_QT` of the CoolProp wrapper, wrappers.py 265-267. -/
def cpDQT (e : Eos S K) (q T : K) : AsCall S K := asRead e .qT q T e.rho
/-- `viscosity_ph` of the CoolProp wrapper, wrappers.py 269-271. -/
def cpViscph (e : Eos S K) (p h : K) : AsCall S K := asRead e .hp h p e.visc
/-- `viscosity_pT` of the CoolProp wrapper, wrappers.py 273-275. -/
def cpViscpT (e : Eos S K) (p T : K) : AsCall S K := asRead e .pT p T e.visc
/-- `s_ph` of the CoolProp wrapper, wrappers.py 277-279. -/
def cpSph (e : Eos S K) (p h : K) : AsCall S K := asRead e .hp h p e.s
/-- `s_pT` of the CoolProp wrapper, wrappers.py 281-283. -/
def cpSpT (e : Eos S K) (p T : K) : AsCall S K := asRead e .pT p T e.s

/-- `CoolPropWrapper.isentropic` (wrappers.py 188-189) -/
def cpIsentropic (e : Eos S K) (p1 h1 p2 : K) : AsCall S K := fun as =>
  match cpSph e p1 h1 as with
  | (as1, .error er) => (as1, .error er)
  | (as1, .ok s) => cpHps e p2 s as1

end coolprop

section iapws
variable {S K : Type} [Field K] [LinearOrder K]

/-- Phases of iapws (wrappers.py 388-395). -/
inductive IPhase
  | liquid | vapour | twoPhases | satVapor | satLiquid | other
  deriving DecidableEq, Repr

/-- The class `IAPWS97` or `IAPWS95` of the library iapws: the constructors used by the wrapper
with the arguments named by the input pair, the properties as attributes; pressures in MPa,
energies in kJ. `pCrit` in MPa (wrappers.py 328-335). -/
structure Iapws (S K : Type) where
  find : StateInputs → K → K → LibRes S
  T : S → K
  P : S → K
  h : S → K
  s : S → K
  rho : S → K
  mu : S → K
  x : S → K
  phase : S → IPhase
  pCrit : K
  tCrit : K

/-- `self.AS(..).attribute` (wrappers.py 348-416). -/
def iaRead {α : Type} (l : Iapws S K) (i : StateInputs) (a b : K) (get : S → α) : LibRes α :=
  match l.find i a b with
  | .error er => .error er
  | .ok st => .ok (get st)

/-- `IAPWSWrapper.T_ph`, `T_ps`, `h_pQ`, `h_ps`, `h_pT`, `h_QT`, `s_QT` (wrappers.py 348-367). The
arguments of `find` are in the order of the input pair of `StateInputs`. -/
def iaTph (l : Iapws S K) (p h : K) : LibRes K := iaRead l .hp (h / 1000) (p / 1000000) l.T
/-- `T_ps` of the IAPWS wrapper, wrappers.py 351-352. -/
def iaTps (l : Iapws S K) (p s : K) : LibRes K := iaRead l .ps (p / 1000000) (s / 1000) l.T
/-- `h_pQ` of the IAPWS wrapper, wrappers.py 354-355. -/
def iaHpQ (l : Iapws S K) (p q : K) : LibRes K :=
  iaRead l .pq (p / 1000000) q (fun st => l.h st * 1000)
/-- `h_ps` of the IAPWS wrapper, wrappers.py 357-358. -/
def iaHps (l : Iapws S K) (p s : K) : LibRes K :=
  iaRead l .ps (p / 1000000) (s / 1000) (fun st => l.h st * 1000)
/-- `h_pT` of the IAPWS wrapper, wrappers.py 360-361. -/
def iaHpT (l : Iapws S K) (p T : K) : LibRes K :=
  iaRead l .pT (p / 1000000) T (fun st => l.h st * 1000)
/-- `h_QT` of the IAPWS wrapper, wrappers.py 363-364. -/
def iaHQT (l : Iapws S K) (q T : K) : LibRes K := iaRead l .qT q T (fun st => l.h st * 1000)
/-- `s_QT` of the IAPWS wrapper, wrappers.py 366-367. -/
def iaSQT (l : Iapws S K) (q T : K) : LibRes K := iaRead l .qT q T (fun st => l.s st * 1000)

/-- `IAPWSWrapper.T_sat` (wrappers.py 369-371); `_p_crit` is in Pa (333). -/
def iaTsat (l : Iapws S K) (p : K) : LibRes K :=
  iaRead l .pq (makeSubcritical (l.pCrit * 1000000) p / 1000000) 0 l.T

/-- `IAPWSWrapper.p_sat` (wrappers.py 373-377): the temperature is divided by 1e6. -/
def iaPsat (l : Iapws S K) (T : K) : LibRes K :=
  iaRead l .qT 0 ((if l.tCrit < T then l.tCrit * (99 / 100) else T) / 1000000)
    (fun st => l.P st * 1000000)

/-- `IAPWSWrapper.Q_ph` (wrappers.py 379-381) -/
def iaQph (l : Iapws S K) (p h : K) : LibRes K :=
  iaRead l .hp (h / 1000) (makeSubcritical (l.pCrit * 1000000) p / 1000000) l.x

/-- name of the phase (wrappers.py 388-395) -/
def iaPhaseName : IPhase → String
  | .liquid => "l"
  | .vapour => "g"
  | .twoPhases => "tp"
  | .satVapor => "tp"
  | .satLiquid => "tp"
  | .other => "phase not recognised"

/-- `IAPWSWrapper.phase_ph` (wrappers.py 383-395) -/
def iaPhase (l : Iapws S K) (p h : K) : LibRes String :=
  iaRead l .hp (h / 1000) (makeSubcritical (l.pCrit * 1000000) p / 1000000)
    (fun st => iaPhaseName (l.phase st))

/-- `IAPWSWrapper.d_ph`, `d_pT`, `d_QT`, `viscosity_ph`, `viscosity_pT`, `s_ph`, `s_pT`
(wrappers.py 397-416) -/
def iaDph (l : Iapws S K) (p h : K) : LibRes K := iaRead l .hp (h / 1000) (p / 1000000) l.rho
/-- `d_pT` of the IAPWS wrapper, wrappers.py 400-401. -/
def iaDpT (l : Iapws S K) (p T : K) : LibRes K := iaRead l .pT (p / 1000000) T l.rho
/-- `d_QT` of the IAPWS wrapper, wrappers.py 403-404. -/
def iaDQT (l : Iapws S K) (q T : K) : LibRes K := iaRead l .qT q T l.rho
/-- `viscosity_ph` of the IAPWS wrapper, wrappers.py 406-407. -/
def iaViscph (l : Iapws S K) (p h : K) : LibRes K := iaRead l .hp (h / 1000) (p / 1000000) l.mu
/-- `viscosity_pT` of the IAPWS wrapper, wrappers.py 409-410. -/
def iaViscpT (l : Iapws S K) (p T : K) : LibRes K := iaRead l .pT (p / 1000000) T l.mu
/-- `s_ph` of the IAPWS wrapper, wrappers.py 412-413. -/
def iaSph (l : Iapws S K) (p h : K) : LibRes K :=
  iaRead l .hp (h / 1000) (p / 1000000) (fun st => l.s st * 1000)
/-- `s_pT` of the IAPWS wrapper, wrappers.py 415-416. -/
def iaSpT (l : Iapws S K) (p T : K) : LibRes K :=
  iaRead l .pT (p / 1000000) T (fun st => l.s st * 1000)

/-- `IAPWSWrapper.isentropic` (wrappers.py 345-346) -/
def iaIsentropic (l : Iapws S K) (p1 h1 p2 : K) : LibRes K :=
  match iaSph l p1 h1 with
  | .error er => .error er
  | .ok s => iaHps l p2 s

end iapws

section pyromat
variable {S K : Type}

/-- A substance of pyromat with the units J, Pa and mol configured by the wrapper
(wrappers.py 433-438); `ig` is the back end for ideal gases. -/
structure Pyromat (S K : Type) where
  ig : Bool
  find : StateInputs → K → K → LibRes S
  T : S → K
  h : S → K
  s : S → K
  rho : S → K
  x : S → K

/-- `self.AS.property(..)[0]` (wrappers.py 457-523). -/
def pmRead {α : Type} (m : Pyromat S K) (i : StateInputs) (a b : K) (get : S → α) : LibRes α :=
  match m.find i a b with
  | .error er => .error er
  | .ok st => .ok (get st)

/-- `PyromatWrapper` (wrappers.py 457-523): methods which are not available for ideal gases. -/
def pmReadReal {α : Type} (m : Pyromat S K) (i : StateInputs) (a b : K) (get : S → α) : LibRes α :=
  if m.ig then .error .notImplemented else pmRead m i a b get

/-- `T_ph` of the PYromat wrapper, wrappers.py 469-470. -/
def pmTph (m : Pyromat S K) (p h : K) : LibRes K := pmRead m .hp h p m.T
/-- `T_ps` of the PYromat wrapper, wrappers.py 472-473. -/
def pmTps (m : Pyromat S K) (p s : K) : LibRes K := pmRead m .ps p s m.T
/-- `h_pT` of the PYromat wrapper, wrappers.py 475-476. -/
def pmHpT (m : Pyromat S K) (p T : K) : LibRes K := pmRead m .pT p T m.h
/-- `h_ps` of the PYromat wrapper, wrappers.py 478-479. -/
def pmHps (m : Pyromat S K) (p s : K) : LibRes K := pmRead m .ps p s m.h
/-- `d_ph` of the PYromat wrapper, wrappers.py 481-482. -/
def pmDph (m : Pyromat S K) (p h : K) : LibRes K := pmRead m .hp h p m.rho
/-- `d_pT` of the PYromat wrapper, wrappers.py 484-485. -/
def pmDpT (m : Pyromat S K) (p T : K) : LibRes K := pmRead m .pT p T m.rho
/-- `s_ph` of the PYromat wrapper, wrappers.py 487-488. -/
def pmSph (m : Pyromat S K) (p h : K) : LibRes K := pmRead m .hp h p m.s
/-- `s_pT` of the PYromat wrapper, wrappers.py 490-491. -/
def pmSpT (m : Pyromat S K) (p T : K) : LibRes K := pmReadReal m .pT p T m.s
/-- `h_QT` of the PYromat wrapper, wrappers.py 495-498. -/
def pmHQT (m : Pyromat S K) (q T : K) : LibRes K := pmReadReal m .qT q T m.h
/-- `s_QT` of the PYromat wrapper, wrappers.py 500-503. -/
def pmSQT (m : Pyromat S K) (q T : K) : LibRes K := pmReadReal m .qT q T m.s
/-- `Q_ph` of the PYromat wrapper, wrappers.py 515-518. -/
def pmQph (m : Pyromat S K) (p h : K) : LibRes K := pmReadReal m .hp h p m.x
/-- `d_QT` of the PYromat wrapper, wrappers.py 520-523. -/
def pmDQT (m : Pyromat S K) (q T : K) : LibRes K := pmReadReal m .qT q T m.rho

/-- Methods of the base class which the wrapper does not override (wrappers.py 64-121):
`T_sat`, `p_sat`, `phase_ph`, `viscosity_ph`, `viscosity_pT`, `_is_below_T_critical`,
`_make_p_subcritical`. The methods for saturation have other names (`T_boiling`, `p_boiling`,
wrappers.py 505-513) which no other code calls. -/
def pmTsat (_m : Pyromat S K) (_p : K) : LibRes K := .error .notImplemented
/-- `p_sat` is not defined by the PYromat wrapper, which inherits wrappers.py 91-92. -/
def pmPsat (_m : Pyromat S K) (_T : K) : LibRes K := .error .notImplemented
/-- `phase_ph` is not defined by the PYromat wrapper, which inherits wrappers.py 97-98. -/
def pmPhase (_m : Pyromat S K) (_p _h : K) : LibRes String := .error .notImplemented
/-- `viscosity_ph` is not defined by the PYromat wrapper, which inherits wrappers.py 109-110. -/
def pmViscph (_m : Pyromat S K) (_p _h : K) : LibRes K := .error .notImplemented
/-- `viscosity_pT` is not defined by the PYromat wrapper, which inherits wrappers.py 112-113. -/
def pmViscpT (_m : Pyromat S K) (_p _T : K) : LibRes K := .error .notImplemented

end pyromat

end Tespy
