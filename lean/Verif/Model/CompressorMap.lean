import Verif.Model.Characteristics
/-
Compressor maps (components/turbomachinery/compressor.py 349-388, 453-502, 664-678). The rows which
`CharMap.evaluate_x` returns at the edges of a map are views of its arrays: scaling them in place
for the inlet guide vane angle changes the map.
-/
namespace Tespy
variable {K : Type _} [Field K] [LinearOrder K]

/-- `row *= f` (components/turbomachinery/compressor.py 384-385, 487-488). -/
def scaleRow (f : K) (row : List K) : List K := row.map (· * f)

/-- The row of the map's arrays which `evaluate_x` returns itself, not a copy of it
(tools/characteristics.py 274-280); `none` if new arrays are computed (281-284). -/
def CharMap.viewRow (c : CharMap K) (x : K) : Option ℕ :=
  let xpos := searchsorted c.x x
  if xpos = c.x.length then some (xpos - 1)
  else if xpos = 0 then some 0
  else none

/-- `yarr *= fy; zarr *= fz` for what `evaluate_x(x)` returned
(components/turbomachinery/compressor.py 384-385, 487-488): the map afterwards. -/
def CharMap.scaled (c : CharMap K) (x fy fz : K) : CharMap K :=
  match c.viewRow x with
  | some i => { c with y := c.y.modify i (scaleRow fy), z := c.z.modify i (scaleRow fz) }
  | none => c

/-- `evaluate_x(x)`, scaling, `evaluate_y(y, yarr, zarr)`
(components/turbomachinery/compressor.py 382-386, 485-489): the map afterwards and the value. -/
def CharMap.scaledEval (c : CharMap K) (fy fz x y : K) : CharMap K × PyRes K :=
  match c.evaluateX x with
  | .error e => (c, .error e)
  | .ok r => (c.scaled x fy fz, CharMap.evaluateY y (scaleRow fy r.1) (scaleRow fz r.2))

/-- The operating point of a compressor as far as the maps are concerned: the speed line index
`x = sqrt(T_design / T_in)`, the mass flow index `y`, pressures at inlet and outlet, the isentropic
and the actual enthalpy difference, the inlet guide vane angle and the design values of `pr` and
`eta_s`. (Simplification: `x`, `y` and the isentropic enthalpy difference are values, not computed from the
connections.) (components/turbomachinery/compressor.py 376-388). -/
structure CompressorPoint (K : Type _) where
  x : K
  y : K
  pIn : K
  pOut : K
  dhIs : K
  dh : K
  igva : K
  prDesign : K
  etaDesign : K

/-- `Compressor.char_map_pr_func` (components/turbomachinery/compressor.py 376-388). -/
def mapPrFunc (c : CharMap K) (q : CompressorPoint K) : CharMap K × PyRes K :=
  match c.scaledEval (1 - q.igva / 100) (1 - q.igva / 100) q.x q.y with
  | (c1, .error e) => (c1, .error e)
  | (c1, .ok pr) => (c1, .ok (q.pOut / q.pIn - pr * q.prDesign))

/-- `Compressor.char_map_eta_s_func` (components/turbomachinery/compressor.py 479-502). -/
def mapEtaFunc (c : CharMap K) (q : CompressorPoint K) : CharMap K × PyRes K :=
  match c.scaledEval (1 - q.igva / 100) (1 - q.igva ^ 2 / 10000) q.x q.y with
  | (c1, .error e) => (c1, .error e)
  | (c1, .ok eta) => (c1, .ok (q.dhIs / q.dh - eta * q.etaDesign))

/-- The row `get_domain_errors_x` returns itself (tools/characteristics.py 369-386). -/
def CharMap.viewRowErrors (c : CharMap K) (x : K) : Option ℕ :=
  let xpos := searchsorted c.x x
  if xpos = c.x.length ∧ pyGet c.x (-1) ≠ .ok x then some (xpos - 1)
  else if xpos = 0 ∧ pyGet c.x 0 ≠ .ok x then some 0
  else none

/-- The part of `Compressor.check_parameter_bounds` which concerns a map
(components/turbomachinery/compressor.py 668-678): the map afterwards. -/
def mapCheck (c : CharMap K) (q : CompressorPoint K) : CharMap K :=
  match c.getDomainErrorsX q.x with
  | .error _ => c
  | .ok _ =>
    match c.viewRowErrors q.x with
    | some i => { c with y := c.y.modify i (scaleRow (1 - q.igva / 100)) }
    | none => c

/-- Any number of evaluations of a residual function at one operating point: the map afterwards and
the values (called in every iteration, components/component.py 586-602). -/
def mapRuns (f : CharMap K → CompressorPoint K → CharMap K × PyRes K) (q : CompressorPoint K) :
    ℕ → CharMap K → CharMap K × List (PyRes K)
  | 0, c => (c, [])
  | n + 1, c =>
    let r := f c q
    let rest := mapRuns f q n r.1
    (rest.1, r.2 :: rest.2)

/-- The numerical derivative of a map's residual for a variable which shifts the operating point to
`up` and `low` (tools/helpers.py 446-459). -/
def mapDeriv (f : CharMap K → CompressorPoint K → CharMap K × PyRes K) (up low : CompressorPoint K)
    (d : K) (c : CharMap K) : CharMap K × PyRes K :=
  match f c up with
  | (c1, .error e) => (c1, .error e)
  | (c1, .ok a) =>
    match f c1 low with
    | (c2, .error e) => (c2, .error e)
    | (c2, .ok b) => (c2, .ok ((a - b) / (2 * d)))

end Tespy
