import Mathlib.Analysis.SpecialFunctions.Pow.Real
import Verif.Model.Engine
/-!
Solar collectors (components/heat_exchangers/solar_collector.py) and parabolic troughs
(components/heat_exchangers/parabolic_trough.py).

Simplifications: real numbers without rounding; the temperatures of the connections are given (or, for the
derivatives, functions of pressure, enthalpy and composition); the ambient temperature is in kelvin (`Tamb.val_SI`,
components/heat_exchangers/simple.py 253-256).
-/
namespace Tespy

/-- States at inlet and outlet (components/heat_exchangers/solar_collector.py 231-242). -/
structure SolarState where
  m : ℝ
  hIn : ℝ
  hOut : ℝ
  TIn : ℝ
  TOut : ℝ

/-- Parameters of the energy group of a solar collector (solar_collector.py 194-206). -/
structure SolarParams where
  E : ℝ
  A : ℝ
  etaOpt : ℝ
  lin : ℝ
  quad : ℝ
  Tamb : ℝ

/-- Parameters of the energy group of a parabolic trough (parabolic_trough.py 230-246). -/
structure TroughParams where
  E : ℝ
  A : ℝ
  etaOpt : ℝ
  c1 : ℝ
  c2 : ℝ
  iam1 : ℝ
  iam2 : ℝ
  aoi : ℝ
  doc : ℝ
  Tamb : ℝ

/-- solar_collector.py 231-242 `energy_group_func` -/
noncomputable def solarRes (c : SolarState) (p : SolarParams) : ℝ :=
  let Tm := (1 / 2) * (c.TIn + c.TOut)
  c.m * (c.hOut - c.hIn) - p.A * (p.E * p.etaOpt - (Tm - p.Tamb) * p.lin - p.quad * (Tm - p.Tamb) ^ 2)

/-- parabolic_trough.py 274-289 `energy_group_func`; `doc ** 1.5` is a real power (Python returns a complex number
for a negative value, the theorems assume `0 ≤ doc`). -/
noncomputable def troughRes (c : SolarState) (p : TroughParams) : ℝ :=
  let Tm := (1 / 2) * (c.TIn + c.TOut)
  let iam := 1 - p.iam1 * |p.aoi| - p.iam2 * p.aoi ^ 2
  c.m * (c.hOut - c.hIn) - p.A * (p.E * p.etaOpt * p.doc ^ (1.5 : ℝ) * iam
    - (Tm - p.Tamb) * p.c1 - p.c2 * (Tm - p.Tamb) ^ 2)

/-- `Q_loss`: value and whether it is a result (components/heat_exchangers/solar_collector.py 306-319). -/
structure LossPar where
  val : ℝ
  isResult : Bool

/-- solar_collector.py 306-319 `calc_parameters`: reported heat and `Q_loss` (before: `old`); `set` is
`energy_group.is_set`. Not modelled: pr, zeta. -/
noncomputable def solarReport (c : SolarState) (p : SolarParams) (set : Bool) (old : LossPar) : ℝ × LossPar :=
  let Q := c.m * (c.hOut - c.hIn)
  (Q, if set = true then ⟨-(p.E * p.A - Q), true⟩ else { old with isResult := false })

/-- parabolic_trough.py 356-369 `calc_parameters` -/
noncomputable def troughReport (c : SolarState) (p : TroughParams) (set : Bool) (old : LossPar) : ℝ × LossPar :=
  let Q := c.m * (c.hOut - c.hIn)
  (Q, if set = true then ⟨-p.E * p.A + Q, true⟩ else { old with isResult := false })

/-- The collector in the equation system: `tPH` gives the temperature of a composition at pressure and enthalpy. The
parameters of the energy group are values of the system (variables if set to "var")
(components/heat_exchangers/solar_collector.py 231-242). -/
noncomputable def solarOf (tPH : (String → ℝ) → ℝ → ℝ → ℝ) (Tamb : ℝ) (s : EqState ℝ) (i o : Port) :
    SolarState × SolarParams :=
  (⟨s.mv i, s.hv i, s.hv o, tPH (s.xv i) (s.pv i) (s.hv i), tPH (s.xv o) (s.pv o) (s.hv o)⟩,
   ⟨s.val (.par "E"), s.val (.par "A"), s.val (.par "eta_opt"), s.val (.par "lkf_lin"),
    s.val (.par "lkf_quad"), Tamb⟩)

/-- solar_collector.py 271-304 `energy_group_deriv`. `δ` are the increments of the numeric derivatives.
`increment_filter` is not modelled. -/
noncomputable def solarD (tPH : (String → ℝ) → ℝ → ℝ → ℝ) (Tamb δp δh : ℝ) (δpar : String → ℝ) (s : EqState ℝ)
    (i o : Port) (k : ℕ) : Writes ℝ :=
  let f := fun s => solarRes (solarOf tPH Tamb s i o).1 (solarOf tPH Tamb s i o).2
  wr s k (.m i.m) (s.hv o - s.hv i)
  ++ wr s k (.p i.p) (centralDiff f s (.p i.p) δp)
  ++ wr s k (.h i.h) (centralDiff f s (.h i.h) δh)
  ++ wr s k (.p o.p) (centralDiff f s (.p o.p) δp)
  ++ wr s k (.h o.h) (centralDiff f s (.h o.h) δh)
  ++ ["E", "eta_opt", "lkf_lin", "lkf_quad", "A"].flatMap (fun n =>
    wr s k (.par n) (centralDiff f s (.par n) (δpar n)))

end Tespy
