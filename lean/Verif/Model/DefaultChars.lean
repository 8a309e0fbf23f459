import Verif.Model.Characteristics
import Mathlib.Algebra.Order.Field.Rat
import Mathlib.Data.Rat.Cast.Defs
/-
The characteristics shipped with the package (data/char_lines.json, data/char_maps.json), the
functions which load them (tools/characteristics.py 481-573) and the part of `Component.preprocess`
which supplies a characteristic where the user has given none (components/component.py 361-383).
The numbers are those of the files, read as exact decimal fractions (the code uses the nearest
floating point numbers). The entries `ref` (references to literature) are left out.
-/
namespace Tespy

/-- Content of data/char_lines.json: component, parameter and name of a line lead to its x and y values
(tools/characteristics.py 506-514). -/
abbrev LineFile (K : Type _) := Dict String (Dict String (Dict String (List K × List K)))

/-- Content of data/char_maps.json: x, y and z values (tools/characteristics.py 506-508, 516-520). -/
abbrev MapFile (K : Type _) :=
  Dict String (Dict String (Dict String (List K × List (List K) × List (List K))))

/-- data/char_lines.json 1-213. -/
def lineFileQ : LineFile ℚ :=
  [("turbine", [
    ("eta_s_char", [
      ("DEFAULT",
        [0.000, 0.300, 0.600, 0.700, 0.800, 0.900, 1.000, 1.100, 1.200, 1.300, 1.400, 1.500],
        [0.950, 0.980, 0.993, 0.996, 0.998, 0.9995, 1.000, 0.999, 0.996, 0.990, 0.980, 0.960]),
      ("TRAUPEL",
        [0.0000, 0.1905, 0.3810, 0.5714, 0.7619, 0.9524, 1.0000, 1.1429, 1.3333, 1.5238, 1.7143,
         1.9048],
        [0.0000, 0.3975, 0.6772, 0.8581, 0.9593, 0.9985, 1.0000, 0.9875, 0.9357, 0.8464, 0.7219,
         0.5643])])]),
   ("compressor", [
    ("eta_s_char", [
      ("DEFAULT",
        [0.49, 0.55782, 0.62612, 0.69418, 0.76132, 0.82682, 0.89, 0.95016, 1, 1.04326, 1.07753,
         1.10916, 1.13795, 1.16365, 1.18604, 1.2049, 1.22],
        [0.78, 0.82066, 0.86025, 0.89742, 0.93083, 0.95914, 0.981, 0.99507, 1.0, 0.99733,
         0.98913, 0.97496, 0.95435, 0.92687, 0.89205, 0.84944, 0.79859])])]),
   ("pump", [
    ("eta_s_char", [
      ("DEFAULT",
        [0.071, 0.282, 0.635, 0.776, 0.917, 1.000, 1.128, 1.270, 1.410, 1.763, 2.115, 2.500],
        [0.250, 0.547, 0.900, 0.965, 0.995, 1.000, 0.990, 0.959, 0.911, 0.737, 0.519, 0.250])])]),
   ("combustion engine", [
    ("tiP_char", [
      ("DEFAULT",
        [0.50, 0.625, 0.75, 0.875, 1.00],
        [3.03, 2.875, 2.74, 2.625, 2.53])]),
    ("Q1_char", [
      ("DEFAULT",
        [0.50, 0.625, 0.75, 0.875, 1.00],
        [0.699, 0.645, 0.593, 0.544, 0.498])]),
    ("Q2_char", [
      ("DEFAULT",
        [0.50, 0.625, 0.75, 0.875, 1.00],
        [0.524, 0.484, 0.445, 0.409, 0.374])]),
    ("Qloss_char", [
      ("DEFAULT",
        [0.50, 0.625, 0.75, 0.875, 1.00],
        [0.147, 0.153, 0.166, 0.187, 0.215])])]),
   ("heat exchanger", [
    ("kA_char1", [
      ("DEFAULT",
        [0.0, 0.01084, 0.03655, 0.07779, 0.13389, 0.20417, 0.28796, 0.38458, 0.49337, 0.61364,
         0.74473, 0.88595, 1.0, 1.19613, 1.36374, 1.53879, 1.72061, 1.90854, 2.10189, 2.29999,
         2.50217, 2.70776, 2.91608, 3.0],
        [0.01, 0.09598, 0.18995, 0.28191, 0.37185, 0.45974, 0.54557, 0.62932, 0.71098, 0.79053,
         0.86796, 0.94324, 1.0, 1.0873, 1.15605, 1.22259, 1.28691, 1.34898, 1.40879, 1.46633,
         1.52157, 1.5745, 1.62511, 1.645]),
      ("CONDENSING FLUID",
        [0.0, 0.02476, 0.08114, 0.167, 0.28023, 0.41869, 0.58027, 0.76284, 0.96428, 1.0, 1.18245,
         1.41525, 1.66053, 1.91619, 2.18009, 2.4501, 2.72412, 3.0],
        [0.01, 0.19836, 0.37181, 0.52217, 0.65124, 0.76085, 0.8528, 0.92891, 0.99099, 1.0,
         1.04084, 1.0803, 1.11116, 1.13524, 1.15435, 1.1703, 1.18492, 1.2])]),
    ("kA_char2", [
      ("DEFAULT",
        [0.0, 0.10449, 0.23774, 0.40054, 0.59243, 0.81296, 1.0, 1.0617, 1.33818, 1.64196,
         1.97259, 2.32963, 2.71261, 3.0012],
        [0.01, 0.21181, 0.40637, 0.58484, 0.74792, 0.89627, 1.0, 1.03058, 1.15152, 1.25977,
         1.35602, 1.44093, 1.51519, 1.562]),
      ("EVAPORATING FLUID",
        [0.0, 0.00412, 0.0076, 0.01101, 0.01488, 0.0211, 0.02758, 0.0362, 0.04751, 0.06206,
         0.08041, 0.10312, 0.13073, 0.1638, 0.20288, 0.24854, 0.30132, 0.37528, 0.45378, 0.54212,
         0.64561, 0.76955, 0.91927, 1.0, 1.10006, 1.31723, 1.57609, 1.88195, 2.24011, 2.65589,
         3.0],
        [0.01, 0.04969, 0.10554, 0.16642, 0.2312, 0.29888, 0.36806, 0.43773, 0.50677, 0.57404,
         0.6384, 0.69873, 0.75388, 0.80274, 0.84415, 0.87699, 0.90012, 0.92187, 0.94082, 0.95729,
         0.97163, 0.98417, 0.99525, 1.0, 1.00521, 1.01439, 1.02312, 1.03175, 1.0406, 1.05002,
         1.0575])])]),
   ("condenser", [
    ("kA_char1", [
      ("DEFAULT",
        [0.0, 0.02476, 0.08114, 0.167, 0.28023, 0.41869, 0.58027, 0.76284, 0.96428, 1.0, 1.18245,
         1.41525, 1.66053, 1.91619, 2.18009, 2.4501, 2.72412, 3.0],
        [0.01, 0.19836, 0.37181, 0.52217, 0.65124, 0.76085, 0.8528, 0.92891, 0.99099, 1.0,
         1.04084, 1.0803, 1.11116, 1.13524, 1.15435, 1.1703, 1.18492, 1.2])]),
    ("kA_char2", [
      ("DEFAULT",
        [0.0, 0.10449, 0.23774, 0.40054, 0.59243, 0.81296, 1.0, 1.0617, 1.33818, 1.64196,
         1.97259, 2.32963, 2.71261, 3.0012],
        [0.01, 0.21181, 0.40637, 0.58484, 0.74792, 0.89627, 1.0, 1.03058, 1.15152, 1.25977,
         1.35602, 1.44093, 1.51519, 1.562])])]),
   ("desuperheater", [
    ("kA_char1", [
      ("DEFAULT",
        [0.0, 0.01084, 0.03655, 0.07779, 0.13389, 0.20417, 0.28796, 0.38458, 0.49337, 0.61364,
         0.74473, 0.88595, 1.0, 1.19613, 1.36374, 1.53879, 1.72061, 1.90854, 2.10189, 2.29999,
         2.50217, 2.70776, 2.91608, 3.0],
        [0.01, 0.09598, 0.18995, 0.28191, 0.37185, 0.45974, 0.54557, 0.62932, 0.71098, 0.79053,
         0.86796, 0.94324, 1.0, 1.0873, 1.15605, 1.22259, 1.28691, 1.34898, 1.40879, 1.46633,
         1.52157, 1.5745, 1.62511, 1.645])]),
    ("kA_char2", [
      ("DEFAULT",
        [0.0, 0.10449, 0.23774, 0.40054, 0.59243, 0.81296, 1.0, 1.0617, 1.33818, 1.64196,
         1.97259, 2.32963, 2.71261, 3.0012],
        [0.01, 0.21181, 0.40637, 0.58484, 0.74792, 0.89627, 1.0, 1.03058, 1.15152, 1.25977,
         1.35602, 1.44093, 1.51519, 1.562])])]),
   ("heat exchanger simple", [
    ("kA_char", [
      ("DEFAULT",
        [0.0, 0.01084, 0.03655, 0.07779, 0.13389, 0.20417, 0.28796, 0.38458, 0.49337, 0.61364,
         0.74473, 0.88595, 1.0, 1.19613, 1.36374, 1.53879, 1.72061, 1.90854, 2.10189, 2.29999,
         2.50217, 2.70776, 2.91608, 3.0],
        [0.01, 0.09598, 0.18995, 0.28191, 0.37185, 0.45974, 0.54557, 0.62932, 0.71098, 0.79053,
         0.86796, 0.94324, 1.0, 1.0873, 1.15605, 1.22259, 1.28691, 1.34898, 1.40879, 1.46633,
         1.52157, 1.5745, 1.62511, 1.645])])]),
   ("pipe", [
    ("kA_char", [
      ("DEFAULT",
        [0.0, 0.01084, 0.03655, 0.07779, 0.13389, 0.20417, 0.28796, 0.38458, 0.49337, 0.61364,
         0.74473, 0.88595, 1.0, 1.19613, 1.36374, 1.53879, 1.72061, 1.90854, 2.10189, 2.29999,
         2.50217, 2.70776, 2.91608, 3.0],
        [0.01, 0.09598, 0.18995, 0.28191, 0.37185, 0.45974, 0.54557, 0.62932, 0.71098, 0.79053,
         0.86796, 0.94324, 1.0, 1.0873, 1.15605, 1.22259, 1.28691, 1.34898, 1.40879, 1.46633,
         1.52157, 1.5745, 1.62511, 1.645])])]),
   ("water electrolyzer", [
    ("eta_char", [
      ("DEFAULT",
        [0.000, 0.0833, 0.250, 0.500, 0.750, 1.000, 1.333],
        [1.100, 1.075, 1.050, 1.025, 1.010, 1.000, 0.990])])])]

/-- data/char_maps.json 1-72. -/
def mapFileQ : MapFile ℚ :=
  [("compressor", [
    ("char_map_pr", [("DEFAULT",
      [0.810, 0.870, 0.946, 0.971, 1, 1.029, 1.062],
      [
        [0.460, 0.481, 0.502, 0.523, 0.543, 0.562, 0.583, 0.598, 0.606, 0.612],
        [0.590, 0.605, 0.620, 0.640, 0.660, 0.685, 0.703, 0.710, 0.711, 0.713],
        [0.767, 0.805, 0.838, 0.859, 0.87, 0.876, 0.878, 0.878, 0.879, 0.88],
        [0.874, 0.908, 0.93, 0.943, 0.953, 0.961, 0.962, 0.963, 0.963, 0.964],
        [0.948, 0.974, 0.987, 0.995, 1.0, 1.002, 1.005, 1.005, 1.006, 1.006],
        [1.014, 1.017, 1.02, 1.023, 1.026, 1.028, 1.03, 1.032, 1.034, 1.036],
        [1.045, 1.047, 1.049, 1.051, 1.052, 1.053, 1.054, 1.054, 1.055, 1.056]],
      [
        [0.502, 0.493, 0.485, 0.467, 0.442, 0.411, 0.378, 0.344, 0.31, 0.276],
        [0.65, 0.637, 0.617, 0.589, 0.556, 0.519, 0.482, 0.445, 0.407, 0.37],
        [0.931, 0.917, 0.893, 0.859, 0.82, 0.779, 0.738, 0.698, 0.657, 0.616],
        [1.05, 1.02, 0.982, 0.939, 0.895, 0.851, 0.806, 0.762, 0.717, 0.672],
        [1.195, 1.151, 1.102, 1.052, 1.0, 0.951, 0.9, 0.85, 0.799, 0.748],
        [1.34, 1.276, 1.213, 1.149, 1.085, 1.022, 0.958, 0.894, 0.831, 0.767],
        [1.441, 1.37, 1.3, 1.229, 1.158, 1.088, 1.017, 0.946, 0.876, 0.805]])]),
    ("char_map_eta_s", [("DEFAULT",
      [0.810, 0.870, 0.946, 0.971, 1, 1.029, 1.062],
      [
        [0.460, 0.481, 0.502, 0.523, 0.543, 0.562, 0.583, 0.598, 0.606, 0.612],
        [0.590, 0.605, 0.620, 0.640, 0.660, 0.685, 0.703, 0.710, 0.711, 0.713],
        [0.767, 0.805, 0.838, 0.859, 0.87, 0.876, 0.878, 0.878, 0.879, 0.88],
        [0.874, 0.908, 0.93, 0.943, 0.953, 0.961, 0.962, 0.963, 0.963, 0.964],
        [0.948, 0.974, 0.987, 0.995, 1.0, 1.002, 1.005, 1.005, 1.006, 1.006],
        [1.014, 1.017, 1.02, 1.023, 1.026, 1.028, 1.03, 1.032, 1.034, 1.036],
        [1.045, 1.047, 1.049, 1.051, 1.052, 1.053, 1.054, 1.054, 1.055, 1.056]],
      [
        [0.872, 0.885, 0.898, 0.911, 0.925, 0.94, 0.945, 0.926, 0.903, 0.879],
        [0.887, 0.909, 0.93, 0.947, 0.963, 0.971, 0.965, 0.939, 0.913, 0.887],
        [0.891, 0.918, 0.946, 0.973, 1.001, 1.014, 1.015, 0.986, 0.955, 0.925],
        [0.977, 0.977, 0.981, 0.995, 1.007, 1.002, 0.981, 0.961, 0.94, 0.92],
        [0.956, 0.959, 0.969, 0.984, 1.0, 0.985, 0.967, 0.95, 0.932, 0.914],
        [0.948, 0.959, 0.962, 0.949, 0.935, 0.922, 0.908, 0.895, 0.881, 0.868],
        [0.879, 0.888, 0.898, 0.907, 0.916, 0.924, 0.915, 0.906, 0.896, 0.887]])])])]
variable {K : Type _} [Field K] [LinearOrder K]

/-- The numbers of the file in the field of the calculation (tools/characteristics.py 510-511). -/
def lineFile (K : Type _) [Field K] : LineFile K :=
  lineFileQ.map fun c => (c.1, c.2.map fun p => (p.1, p.2.map fun n =>
    (n.1, n.2.1.map (fun q : ℚ => (q : K)), n.2.2.map (fun q : ℚ => (q : K)))))

/-- The numbers of the file in the field of the calculation (tools/characteristics.py 510-511). -/
def mapFile (K : Type _) [Field K] : MapFile K :=
  mapFileQ.map fun c => (c.1, c.2.map fun p => (p.1, p.2.map fun n =>
    (n.1, n.2.1.map (fun q : ℚ => (q : K)), n.2.2.1.map (List.map (fun q : ℚ => (q : K))),
      n.2.2.2.map (List.map (fun q : ℚ => (q : K))))))

/-- `data[component][parameter][function_name]` (tools/characteristics.py 513-520). -/
def lookup3 {β : Type _} (d : Dict String (Dict String (Dict String β)))
    (component parameter name : String) : PyRes β :=
  match d.getItem component with
  | .error e => .error e
  | .ok p =>
    match p.getItem parameter with
    | .error e => .error e
    | .ok n => n.getItem name

/-- `load_default_char(component, parameter, function_name, CharLine)`
(tools/characteristics.py 505-515). -/
def loadDefaultLine (f : LineFile K) (component parameter name : String) : PyRes (CharLine K) :=
  match lookup3 f component parameter name with
  | .error e => .error e
  | .ok v => CharLine.init v.1 v.2

/-- `load_default_char(component, parameter, function_name, CharMap)`
(tools/characteristics.py 505-511, 517-521). -/
def loadDefaultMap (f : MapFile K) (component parameter name : String) : PyRes (CharMap K) :=
  match lookup3 f component parameter name with
  | .error e => .error e
  | .ok v => CharMap.init v.1 v.2.1 v.2.2

/-- What `char_func` of a characteristic parameter can be (components/component.py 361-383). -/
inductive CharFn (K : Type _)
  | line (l : CharLine K)
  | map (m : CharMap K)
  deriving DecidableEq

/-- `CharLine(x=[0, 1], y=[1, 1])` (components/component.py 370, 381). -/
def constantOne : CharLine K := ⟨[0, 1], [1, 1], false⟩

/-- The characteristic line of a parameter after `preprocess`, `given`: `char_func` before it
(components/component.py 361-370). -/
def preprocessLine (f : LineFile K) (component key : String) (given : Option (CharFn K)) :
    PyRes (CharFn K) :=
  match given with
  | some g => .ok g
  | none =>
    match loadDefaultLine f component key "DEFAULT" with
    | .ok l => .ok (.line l)
    | .error .keyError => .ok (.line constantOne)
    | .error e => .error e

/-- The characteristic map of a parameter after `preprocess` (components/component.py 372-381). -/
def preprocessMap (f : MapFile K) (component key : String) (given : Option (CharFn K)) :
    PyRes (CharFn K) :=
  match given with
  | some g => .ok g
  | none =>
    match loadDefaultMap f component key "DEFAULT" with
    | .ok m => .ok (.map m)
    | .error .keyError => .ok (.line constantOne)
    | .error e => .error e

/-- `char_func.evaluate(x)` for lines and maps (tools/characteristics.py 82, 313): a map needs two
arguments. -/
def CharFn.evaluate1 (c : CharFn K) (x : K) : PyRes K :=
  match c with
  | .line l => l.evaluate x
  | .map _ => .error .typeError

/-- `char_func.evaluate_x(x)`, `char_func.evaluate_y(y, yarr, zarr)` as called for maps
(components/turbomachinery/compressor.py 382-386, 485-489): lines have no such methods. -/
def CharFn.evaluate2 (c : CharFn K) (x y : K) : PyRes K :=
  match c with
  | .line _ => .error .attributeError
  | .map m => m.evaluate x y

/-- A component class with characteristic parameters: the result of `component()`, the parameters
which are lines and those which are maps, the class it is derived from (components/component.py
343-383). -/
structure CharClass where
  cls : String
  base : String
  component : String
  lines : List String
  maps : List String
  deriving DecidableEq

/-- All classes of the package whose `get_parameters` contains characteristics
(turbomachinery/turbine.py 149-167, steam_turbine.py 148-164, compressor.py 153-189, pump.py 156-187,
piping/valve.py 134-153, pipe.py 162-180, heat_exchangers/base.py 227-285, condenser.py 241-253,
desuperheater.py 178-190, movingboundary.py 260-290, simple.py 200-240, 1165-1173,
combustion/engine.py 245-286, reactors/water_electrolyzer.py 185-213; `SolarCollector` and
`ParabolicTrough` delete `kA_char`, solar_collector.py 191, parabolic_trough.py 228). -/
def charClasses : List CharClass :=
  [⟨"Turbine", "Turbomachine", "turbine", ["eta_s_char"], []⟩,
   ⟨"SteamTurbine", "Turbine", "steam turbine", ["eta_s_char"], []⟩,
   ⟨"Compressor", "Turbomachine", "compressor", ["eta_s_char"], ["char_map_eta_s", "char_map_pr"]⟩,
   ⟨"Pump", "Turbomachine", "pump", ["eta_s_char", "flow_char"], []⟩,
   ⟨"Valve", "Component", "valve", ["dp_char"], []⟩,
   ⟨"SimpleHeatExchanger", "Component", "heat exchanger simple", ["kA_char"], []⟩,
   ⟨"HeatExchangerSimple", "SimpleHeatExchanger", "heat exchanger simple", ["kA_char"], []⟩,
   ⟨"Pipe", "SimpleHeatExchanger", "pipe", ["kA_char"], []⟩,
   ⟨"HeatExchanger", "Component", "heat exchanger", ["kA_char1", "kA_char2"], []⟩,
   ⟨"Condenser", "HeatExchanger", "condenser", ["kA_char1", "kA_char2"], []⟩,
   ⟨"Desuperheater", "HeatExchanger", "desuperheater", ["kA_char1", "kA_char2"], []⟩,
   ⟨"MovingBoundaryHeatExchanger", "HeatExchanger", "moving boundary heat exchanger",
     ["kA_char1", "kA_char2"], []⟩,
   ⟨"CombustionEngine", "CombustionChamber", "combustion engine",
     ["tiP_char", "Q1_char", "Q2_char", "Qloss_char"], []⟩,
   ⟨"WaterElectrolyzer", "Component", "water electrolyzer", ["eta_char"], []⟩]

/-- `load_custom_char(name, char_type)` for lines (tools/characteristics.py 541-573); `file`: the
content of the user's file, `none` if it does not exist (FileNotFoundError, here `nameError`). -/
def loadCustomLine (file : Option (Dict String (List K × List K))) (name : String) :
    PyRes (CharLine K) :=
  match file with
  | none => .error .nameError
  | some d =>
    match d.getItem name with
    | .error e => .error e
    | .ok v => CharLine.init v.1 v.2

end Tespy
