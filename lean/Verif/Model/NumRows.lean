import Verif.Model.Eqs
import Verif.Model.HexSpec
import Verif.Model.MovingBoundary
import Verif.Model.SteamTurbine

/-!
Parameter equations whose Jacobian row is (at least in part) determined by numerical differentiation: the residual as a
function of the variables of the system, and the entries the `..._deriv` method writes.

Simplifications: real numbers; `increment_filter` is not modelled (no variable is filtered, component.py 444-448);
starting values `T0` passed to the property functions are not modelled; compressor maps are functions (evaluation changes
the map in the code, see C63).
-/
namespace Tespy

noncomputable section

/-- Property functions of a composition (CoolProp and mixing rules, not modelled): temperature, specific volume and
viscosity at pressure and enthalpy, saturation temperature, enthalpy at vapour quality 0 (`false`) or 1 (`true`), enthalpy
at pressure and temperature (`none`: an exception), enthalpy after isentropic change of state from `p`, `h` to `p'`,
saturation enthalpies (liquid, gas; `none` for mixtures and if CoolProp raises), Darcy friction factor (`dff` at Reynolds
number, roughness, diameter), `round(_, 6)`, properties of steam (Model/SteamTurbine.lean)
(tools/fluid_properties/functions.py 27-34, 88-271). -/
structure NumProps where
  T : (String → ℝ) → ℝ → ℝ → ℝ
  vol : (String → ℝ) → ℝ → ℝ → ℝ
  visc : (String → ℝ) → ℝ → ℝ → ℝ
  Tsat : (String → ℝ) → ℝ → ℝ
  hPQ : (String → ℝ) → ℝ → Bool → ℝ
  hPT : (String → ℝ) → ℝ → ℝ → Option ℝ
  isen : (String → ℝ) → ℝ → ℝ → ℝ → ℝ
  sat : (String → ℝ) → ℝ → Option (ℝ × ℝ)
  fric : ℝ → ℝ → ℝ → ℝ
  rnd : ℝ → ℝ
  steam : (String → ℝ) → SteamFuns

/-- A component: its connections, the design values of the connections and parameters, characteristic lines and maps
(by name), whether temperatures are specified (condenser), the constant `e0` (reactors), the ambient temperature, and the
increments `d` of its parameters (data_containers.py `dc_cp`). -/
structure NComp where
  inl : ℕ → Port
  outl : ℕ → Port
  dIn : ℕ → HDesign
  dOut : ℕ → HDesign
  design : String → ℝ
  char : String → ℝ → PyRes ℝ
  map : String → ℝ → ℝ → ℝ → PyRes ℝ
  tset : TSet
  e0 : ℝ
  Tamb : ℝ
  d : String → ℝ

/-- `param` and `char_params` of a characteristic (data_containers.py 166-200). -/
structure CharSel where
  param : CharParam
  rel : Bool
  inconn : ℕ
  outconn : ℕ

/-- Values of a connection in a state: `val_SI` of mass flow, pressure and enthalpy, `calc_T()`, `calc_vol()`
(connections/connection.py 738-741, 789-795). -/
def nStream (F : NumProps) (s : EqState ℝ) (c : Port) : HStream :=
  ⟨s.mv c, s.pv c, s.hv c, F.T (s.xv c) (s.pv c) (s.hv c), F.vol (s.xv c) (s.pv c) (s.hv c)⟩

/-- component.py 450-514 `get_char_expr`. For `type='abs'` an unknown parameter gives `False`, which is 0 as a number. -/
def nCharExpr (F : NumProps) (C : NComp) (q : CharSel) (s : EqState ℝ) : PyRes ℝ :=
  let i := nStream F s (C.inl q.inconn)
  let o := nStream F s (C.outl q.outconn)
  if q.rel then charExprRel q.param i o (C.dIn q.inconn) (C.dOut q.outconn)
  else match q.param with
    | .m => .ok i.m
    | .mOut => .ok o.m
    | .v => .ok (i.m * i.vol)
    | .pr => rdiv o.p i.p
    | .other => .ok 0

/-- State of a two-sided heat exchanger (heat_exchangers/base.py). -/
def nHex (F : NumProps) (C : NComp) (s : EqState ℝ) : HexState :=
  { i1 := nStream F s (C.inl 0), i2 := nStream F s (C.inl 1),
    o1 := nStream F s (C.outl 0), o2 := nStream F s (C.outl 1),
    hotMax := F.hPT (s.xv (C.outl 0)) (s.pv (C.outl 0)) (nStream F s (C.inl 1)).T,
    coldMax := F.hPT (s.xv (C.outl 1)) (s.pv (C.outl 1)) (nStream F s (C.inl 0)).T,
    Tsat := F.Tsat (s.xv (C.inl 0)) (s.pv (C.inl 0)) }

/-- One side of the moving boundary heat exchanger (movingboundary.py 306-329): the saturation enthalpies are taken at the
pressure of the connection with the lower enthalpy. -/
def nSide (F : NumProps) (s : EqState ℝ) (i o : Port) : MBSide :=
  ⟨s.hv i, s.hv o, s.mv i, s.pv i, s.pv o,
    if s.hv i > s.hv o then F.sat (s.xv o) (s.pv o) else F.sat (s.xv i) (s.pv i)⟩

open Classical in
/-- movingboundary.py 306-308: `ValueError` for different fluid data at inlet and outlet of one side. Compared are the
compositions; identity of the wrappers is not modelled. -/
def nSameFluid (C : NComp) (s : EqState ℝ) : Prop :=
  s.xv (C.inl 0) = s.xv (C.outl 0) ∧ s.xv (C.inl 1) = s.xv (C.outl 1)

/-- The equations (the functions cited at the cases). -/
inductive NEq
  /-- `zeta_func` of any component with parameter name and connection numbers -/
  | zeta (name : String) (inconn outconn : ℕ)
  | hexKA | condKA
  | hexKAChar (q1 q2 : CharSel) | condKAChar (q1 q2 : CharSel)
  | hexTtdU | condTtdU | ttdL | ttdMin
  | effCold | effHot | effMax
  /-- `Condenser.subcooling_func` -/
  | subcooling
  /-- `Desuperheater.saturated_gas_func` -/
  | satGas
  | UA | tdPinch
  | darcy | hazen
  | simpleKA
  | simpleKAChar (q : CharSel)
  /-- `Valve.dp_char_func` -/
  | dpChar (q : CharSel)
  /-- `WaterElectrolyzer.eta_char_func` -/
  | etaChar (q : CharSel)
  /-- `eta_s_func` of pump and compressor -/
  | pumpEta
  /-- `eta_s_char_func` of pump and compressor -/
  | pumpEtaChar (q : CharSel)
  /-- `Pump.flow_char_func` -/
  | flowChar (q : CharSel)
  | mapPr | mapEta
  | turbineEta
  /-- `Turbine.eta_s_char_func`; `char_params` are not passed on -/
  | turbineEtaChar (p : CharParam)
  | cone
  /-- `SteamTurbine.eta_s_wet_func` -/
  | wetEta

/-- `self.kA.design * fkA * td_log` with `fkA = 2 / (1 / fkA1 + 1 / fkA2)` (base.py 565-582); `td` is the value of
`calculate_td_log()`. -/
def nKAChar (f1 f2 : ℝ → PyRes ℝ) (x1 x2 : PyRes ℝ) (td : PyRes ℝ) (m dh kADesign : ℝ) : PyRes ℝ :=
  match x1, x2 with
  | .error e, _ => .error e
  | _, .error e => .error e
  | .ok x1, .ok x2 => match f1 x1, f2 x2 with
    | .error e, _ => .error e
    | _, .error e => .error e
    | .ok c1, .ok c2 =>
      if c1 = 0 ∨ c2 = 0 ∨ 1 / c1 + 1 / c2 = 0 then .error .zeroDivision
      else match td with
        | .error e => .error e
        | .ok td => .ok (m * dh + kADesign * (2 / (1 / c1 + 1 / c2)) * td)

/-- A characteristic evaluated at an expression (no check for zero)
(component.py 450-514, components/heat_exchangers/base.py 565-582). -/
def nChar (f : ℝ → PyRes ℝ) (x : PyRes ℝ) : PyRes ℝ :=
  match x with
  | .error e => .error e
  | .ok x => f x

/-- Map a value (Python expression around a value which can raise, e.g. component.py 1143-1156). -/
def nMap (g : ℝ → ℝ) (x : PyRes ℝ) : PyRes ℝ :=
  match x with
  | .error e => .error e
  | .ok x => .ok (g x)

/-- compressor.py 363-371, 467-475: speed line and load of the map, `map` includes the effect of `igva`. -/
def nMapEval (C : NComp) (name : String) (i : HStream) (igva : ℝ) : PyRes ℝ :=
  C.map name (Real.sqrt ((C.dIn 0).T / i.T))
    ((i.m * (C.dIn 0).p) / ((C.dIn 0).m * i.p * Real.sqrt ((C.dIn 0).T / i.T))) igva

/-- The residual functions (file and lines at each case). -/
def NEq.res (F : NumProps) (C : NComp) (s : EqState ℝ) : NEq → PyRes ℝ
  -- component.py 1143-1156
  | .zeta name a b => zetaRes (nStream F s (C.inl a)) (nStream F s (C.outl b)) (s.val (.par name))
  -- heat_exchangers/base.py 491-495
  | .hexKA => hexKARes (nHex F C s) (s.val (.par "kA"))
  -- with calculate_td_log of condenser.py 316-343
  | .condKA => condKARes C.tset (nHex F C s) (s.val (.par "kA"))
  -- heat_exchangers/base.py 565-582
  | .hexKAChar q1 q2 =>
    nKAChar (C.char "kA_char1") (C.char "kA_char2") (nCharExpr F C q1 s) (nCharExpr F C q2 s)
      (hexTdLog (nHex F C s).i1.T (nHex F C s).i2.T (nHex F C s).o1.T (nHex F C s).o2.T)
      (nHex F C s).i1.m ((nHex F C s).o1.h - (nHex F C s).i1.h) (C.design "kA")
  -- condenser.py 371-398
  | .condKAChar q1 q2 =>
    nKAChar (C.char "kA_char1") (C.char "kA_char2") (nCharExpr F C q1 s) (nCharExpr F C q2 s)
      (condTdLog C.tset (nHex F C s).Tsat (nHex F C s).i2.T (nHex F C s).o1.T (nHex F C s).o2.T)
      (nHex F C s).i1.m ((nHex F C s).o1.h - (nHex F C s).i1.h) (C.design "kA")
  -- heat_exchangers/base.py 649-653; condenser.py 446-450
  | .hexTtdU => .ok (hexTtdURes false (nHex F C s) (s.val (.par "ttd_u")))
  | .condTtdU => .ok (hexTtdURes true (nHex F C s) (s.val (.par "ttd_u")))
  -- heat_exchangers/base.py 703-707, 760-774
  | .ttdL => .ok (hexTtdLRes (nHex F C s) (s.val (.par "ttd_l")))
  | .ttdMin => .ok (hexTtdMinRes (nHex F C s) (s.val (.par "ttd_min")))
  -- heat_exchangers/base.py 795-831, 860-896, 938-953
  | .effCold => hexEffColdRes (nHex F C s) (s.val (.par "eff_cold"))
  | .effHot => hexEffHotRes (nHex F C s) (s.val (.par "eff_hot"))
  | .effMax => hexEffMaxRes (nHex F C s) (s.val (.par "eff_max"))
  -- condenser.py 278-279
  | .subcooling => .ok (s.hv (C.outl 0) - F.hPQ (s.xv (C.outl 0)) (s.pv (C.outl 0)) false)
  -- desuperheater.py 208-209
  | .satGas => .ok (s.hv (C.outl 0) - F.hPQ (s.xv (C.outl 0)) (s.pv (C.outl 0)) true)
  -- movingboundary.py 472-482
  | .UA =>
    open Classical in
    if nSameFluid C s then
      nMap (fun x => s.val (.par "UA") - x)
        (mbCalcUA F.rnd (F.T (s.xv (C.inl 0))) (F.T (s.xv (C.inl 1))) (nSide F s (C.inl 0) (C.outl 0))
          (nSide F s (C.inl 1) (C.outl 1)))
    else .error .valueError
  -- movingboundary.py 522-541
  | .tdPinch =>
    open Classical in
    if nSameFluid C s then
      nMap (fun x => s.val (.par "td_pinch") - x)
        (mbPinch (F.T (s.xv (C.inl 0))) (F.T (s.xv (C.inl 1))) (nSide F s (C.inl 0) (C.outl 0))
          (nSide F s (C.inl 1) (C.outl 1)))
    else .error .valueError
  -- simple.py 343-361
  | .darcy =>
    darcyRes (nStream F s (C.inl 0)) (nStream F s (C.outl 0)) (s.val (.par "L")) (s.val (.par "D"))
      (F.fric (4 * |s.mv (C.inl 0)| / (Real.pi * s.val (.par "D") *
        (F.visc (s.xv (C.inl 0)) (s.pv (C.inl 0)) (s.hv (C.inl 0))
          + F.visc (s.xv (C.outl 0)) (s.pv (C.outl 0)) (s.hv (C.outl 0))) / 2))
        (s.val (.par "ks")) (s.val (.par "D")))
  -- simple.py 443-460
  | .hazen =>
    .ok (hazenRes (nStream F s (C.inl 0)) (nStream F s (C.outl 0)) (s.val (.par "L")) (s.val (.par "ks_HW"))
      (s.val (.par "D")))
  -- simple.py 541-561
  | .simpleKA => simpleKARes (nStream F s (C.inl 0)) (nStream F s (C.outl 0)) C.Tamb (s.val (.par "kA"))
  -- simple.py 648-674
  | .simpleKAChar q =>
    match nCharExpr F C q s with
    | .error e => .error e
    | .ok x => match simpleTd (nStream F s (C.inl 0)).T (nStream F s (C.outl 0)).T C.Tamb with
      | .error e => .error e
      | .ok td => match C.char "kA_char" x with
        | .error e => .error e
        | .ok c => if c = 0 ∨ 1 + 1 / c = 0 then .error .zeroDivision
          else .ok (s.mv (C.inl 0) * (s.hv (C.outl 0) - s.hv (C.inl 0)) + C.design "kA" * (2 / (1 + 1 / c)) * td)
  -- valve.py 184-194
  | .dpChar q =>
    nMap (fun c => s.pv (C.inl 0) - s.pv (C.outl 0) - c) (charFactor (C.char "dp_char") (nCharExpr F C q s))
  -- water_electrolyzer.py 644-654
  | .etaChar q =>
    match charFactor (C.char "eta_char") (nCharExpr F C q s) with
    | .error e => .error e
    | .ok c => nMap (fun x => s.val (.par "P") - x) (rdiv (s.mv (C.outl 2) * C.e0) (C.design "eta" * c))
  -- pump.py 205-218, compressor.py 206-219
  | .pumpEta =>
    .ok (pumpEtaRes (nStream F s (C.inl 0)) (nStream F s (C.outl 0))
      (F.isen (s.xv (C.inl 0)) (s.pv (C.inl 0)) (s.hv (C.inl 0)) (s.pv (C.outl 0))) (s.val (.par "eta_s")))
  -- pump.py 277-300, compressor.py 278-301
  | .pumpEtaChar q =>
    nMap (fun c => (s.hv (C.outl 0) - s.hv (C.inl 0)) * C.design "eta_s" * c
        - (F.isen (s.xv (C.inl 0)) (s.pv (C.inl 0)) (s.hv (C.inl 0)) (s.pv (C.outl 0)) - s.hv (C.inl 0)))
      (charFactor (C.char "eta_s_char") (nCharExpr F C q s))
  -- pump.py 359-363
  | .flowChar q =>
    nMap (fun c => s.pv (C.outl 0) - s.pv (C.inl 0) - c) (nChar (C.char "flow_char") (nCharExpr F C q s))
  -- compressor.py 360-373
  | .mapPr =>
    nMap (fun pr => s.pv (C.outl 0) / s.pv (C.inl 0) - pr * C.design "pr")
      (nMapEval C "char_map_pr" (nStream F s (C.inl 0)) (s.val (.par "igva")))
  -- compressor.py 464-487
  | .mapEta =>
    nMap (fun eta => (F.isen (s.xv (C.inl 0)) (s.pv (C.inl 0)) (s.hv (C.inl 0)) (s.pv (C.outl 0)) - s.hv (C.inl 0))
        / (s.hv (C.outl 0) - s.hv (C.inl 0)) - eta * C.design "eta_s")
      (nMapEval C "char_map_eta_s" (nStream F s (C.inl 0)) (s.val (.par "igva")))
  -- turbine.py 193-208
  | .turbineEta =>
    .ok (turbineEtaRes (nStream F s (C.inl 0)) (nStream F s (C.outl 0))
      (F.isen (s.xv (C.inl 0)) (s.pv (C.inl 0)) (s.hv (C.inl 0)) (s.pv (C.outl 0))) (s.val (.par "eta_s")))
  -- turbine.py 361-387
  | .turbineEtaChar p =>
    turbineEtaCharRes (C.char "eta_s_char") p (nStream F s (C.inl 0)) (nStream F s (C.outl 0)) (C.dIn 0) (C.dOut 0)
      (F.isen (s.xv (C.inl 0)) (s.pv (C.inl 0)) (s.hv (C.inl 0)) (s.pv (C.outl 0))) (C.design "eta_s")
  -- turbine.py 284-297
  | .cone => coneRes (nStream F s (C.inl 0)) (nStream F s (C.outl 0)) (C.dIn 0) (C.design "pr")
  -- steam_turbine.py 180-263; all properties are those of the fluid of the inlet (the fluid is pure)
  | .wetEta =>
    steamRes (F.steam (s.xv (C.inl 0))) ⟨s.pv (C.inl 0), s.hv (C.inl 0), s.pv (C.outl 0), s.hv (C.outl 0)⟩
      (s.val (.par "eta_s_dry")) (s.val (.par "alpha"))

/-- An entry: the result of `numeric_deriv` or a value (tools/helpers.py 382-470 or a value, see `NEq.row`). -/
inductive NEntry
  | num
  | val (x : ℝ)

/-- Numerical entries for pressure and enthalpy of a connection (the pattern of component.py 1221-1229). -/
def numPH (c : Port) : List (Var × NEntry) := [(.p c.p, .num), (.h c.h, .num)]
/-- Numerical entries for mass flow, pressure and enthalpy of a connection (the pattern of component.py 1221-1225). -/
def numMPH (c : Port) : List (Var × NEntry) := (.m c.m, .num) :: numPH c

/-- `dh_mix_dpQ` (tools/fluid_properties/functions.py 143-147) -/
def nDhPQ (F : NumProps) (x : String → ℝ) (p : ℝ) (q : Bool) : ℝ :=
  (F.hPQ x (p + 1 / 10) q - F.hPQ x (p - 1 / 10) q) / (2 * (1 / 10))

/-- The entries the `..._deriv` methods write, in order, if all quantities are variables (file and lines at each case). -/
def NEq.row (F : NumProps) (C : NComp) (s : EqState ℝ) : NEq → List (Var × NEntry)
  -- component.py 1214-1232
  | .zeta name a b => numMPH (C.inl a) ++ numPH (C.outl b) ++ [(.par name, .num)]
  -- heat_exchangers/base.py 531-541
  | .hexKA | .condKA =>
    (.m (C.inl 0).m, .val (s.hv (C.outl 0) - s.hv (C.inl 0)))
      :: (numPH (C.inl 0) ++ numPH (C.inl 1) ++ numPH (C.outl 0) ++ numPH (C.outl 1))
  -- heat_exchangers/base.py 624-633
  | .hexKAChar _ _ | .condKAChar _ _ =>
    [(.m (C.inl 0).m, .num), (.m (C.inl 1).m, .num)]
      ++ (numPH (C.inl 0) ++ numPH (C.inl 1) ++ numPH (C.outl 0) ++ numPH (C.outl 1))
  -- heat_exchangers/base.py 682-688
  | .hexTtdU | .condTtdU => numPH (C.inl 0) ++ numPH (C.outl 1)
  -- heat_exchangers/base.py 737-743
  | .ttdL => numPH (C.inl 1) ++ numPH (C.outl 0)
  -- heat_exchangers/base.py 787-793, 966-973
  | .ttdMin | .effMax => numPH (C.inl 0) ++ numPH (C.inl 1) ++ numPH (C.outl 0) ++ numPH (C.outl 1)
  -- heat_exchangers/base.py 844-858
  | .effCold => numPH (C.inl 0) ++ numPH (C.outl 1) ++ [(.h (C.inl 1).h, .val (effColdEntry (s.val (.par "eff_cold"))))]
  -- heat_exchangers/base.py 909-923
  | .effHot => (.h (C.inl 0).h, .val (effHotEntry (s.val (.par "eff_hot")))) :: (numPH (C.outl 0) ++ numPH (C.inl 1))
  -- condenser.py 309-313
  | .subcooling =>
    [(.p (C.outl 0).p, .val (-nDhPQ F (s.xv (C.outl 0)) (s.pv (C.outl 0)) false)), (.h (C.outl 0).h, .val 1)]
  -- desuperheater.py 239-243
  | .satGas =>
    [(.p (C.outl 0).p, .val (-nDhPQ F (s.xv (C.outl 0)) (s.pv (C.outl 0)) true)), (.h (C.outl 0).h, .val 1)]
  -- movingboundary.py 495-503, 554-562
  | .UA | .tdPinch => numMPH (C.inl 0) ++ numMPH (C.inl 1) ++ numMPH (C.outl 0) ++ numMPH (C.outl 1)
  -- simple.py 397-417
  | .darcy =>
    numMPH (C.inl 0) ++ numPH (C.outl 0) ++ [(.par "L", .num), (.par "ks", .num), (.par "D", .num)]
  -- simple.py 494-514
  | .hazen =>
    numMPH (C.inl 0) ++ numPH (C.outl 0) ++ [(.par "L", .num), (.par "ks_HW", .num), (.par "D", .num)]
  -- simple.py 603-618
  | .simpleKA =>
    (.m (C.inl 0).m, .val (s.hv (C.outl 0) - s.hv (C.inl 0)))
      :: (numPH (C.inl 0) ++ numPH (C.outl 0) ++ [(.par "kA", .num)])
  -- simple.py 721-733
  | .simpleKAChar _ => numMPH (C.inl 0) ++ numPH (C.outl 0)
  -- valve.py 236-256
  | .dpChar q =>
    (.m (C.inl 0).m, .num)
      :: ((if q.param = .v then numPH (C.inl 0) else [(.p (C.inl 0).p, .val 1)]) ++ [(.p (C.outl 0).p, .val (-1))])
  -- water_electrolyzer.py 694-700
  | .etaChar _ => [(.m (C.outl 2).m, .num), (.par "P", .val 1)]
  -- pump.py 250-261, compressor.py 251-262
  | .pumpEta =>
    [(.p (C.inl 0).p, .num), (.p (C.outl 0).p, .num), (.h (C.inl 0).h, .num),
      (.h (C.outl 0).h, .val (s.val (.par "eta_s")))]
  -- pump.py 333-346, compressor.py 334-347, turbine.py 420-433
  | .pumpEtaChar _ | .turbineEtaChar _ => numMPH (C.inl 0) ++ numPH (C.outl 0)
  -- pump.py 396-407
  | .flowChar _ => numMPH (C.inl 0) ++ [(.p (C.outl 0).p, .num)]
  -- compressor.py 433-451
  | .mapPr =>
    numMPH (C.inl 0) ++ [(.p (C.outl 0).p, .val (1 / s.pv (C.inl 0))), (.h (C.outl 0).h, .num), (.par "igva", .num)]
  -- compressor.py 547-565
  | .mapEta => numMPH (C.inl 0) ++ numPH (C.outl 0) ++ [(.par "igva", .num)]
  -- turbine.py 240-251; the last entry is written in the first iteration only and stays
  | .turbineEta =>
    [(.p (C.inl 0).p, .num), (.p (C.outl 0).p, .num), (.h (C.inl 0).h, .num), (.h (C.outl 0).h, .val (-1))]
  -- turbine.py 334-345
  | .cone => (.m (C.inl 0).m, .val (-1)) :: (numPH (C.inl 0) ++ [(.p (C.outl 0).p, .num)])
  -- steam_turbine.py 265-287
  | .wetEta => (steamDerivVars (C.inl 0) (C.outl 0)).map (fun v => (v, .num))

/-- tools/helpers.py 410-411, 447-452: increment of the numerical derivative. Mass fractions do not occur here. -/
def nStep (C : NComp) : Var → ℝ
  | .m _ => 1 / 10000
  | .p _ => 1 / 10
  | .h _ => 1 / 10
  | .x _ _ => 1 / 100000
  | .par n => C.d n

/-- The state with another value of a variable (tools/helpers.py 447-459). -/
def nPut (s : EqState ℝ) (v : Var) (t : ℝ) : EqState ℝ := { s with val := Function.update s.val v t }

/-- tools/helpers.py 410-420, 447-459: the numerical derivative of a residual, or the exception. -/
def nNumeric (C : NComp) (f : EqState ℝ → PyRes ℝ) (s : EqState ℝ) (v : Var) : PyRes ℝ :=
  match f (nPut s v (s.val v + nStep C v)) with
  | .error e => .error e
  | .ok up => match f (nPut s v (s.val v - nStep C v)) with
    | .error e => .error e
    | .ok low => rdiv (up - low) (2 * nStep C v)

/-- Value of an entry (component.py 1221-1232). -/
def nValue (C : NComp) (f : EqState ℝ → PyRes ℝ) (s : EqState ℝ) (v : Var) : NEntry → PyRes ℝ
  | .num => nNumeric C f s v
  | .val x => .ok x

/-- Evaluate entries in order, only for quantities which are variables
(`if self.is_variable(...)`, component.py 1220-1232). -/
def nEval (C : NComp) (f : EqState ℝ → PyRes ℝ) (s : EqState ℝ) : List (Var × NEntry) → PyRes (List (Var × ℝ))
  | [] => .ok []
  | e :: l =>
    if s.isVar e.1 then
      match nValue C f s e.1 e.2 with
      | .error e => .error e
      | .ok x => match nEval C f s l with
        | .error e => .error e
        | .ok r => .ok ((e.1, x) :: r)
    else nEval C f s l

/-- The row of the Jacobian a `..._deriv` method writes (component.py 586-602). -/
def NEq.jac (F : NumProps) (C : NComp) (s : EqState ℝ) (e : NEq) : PyRes (List (Var × ℝ)) :=
  nEval C (fun s => e.res F C s) s (e.row F C s)

end

end Tespy
