import Mathlib.Algebra.Field.Basic
import Mathlib.Data.List.Basic
import Verif.Model.Py
/-
Design point information: how an off-design calculation reads the values of
the design point from the files of earlier calculations, and which files and
rows are used for components, connections and busses.
-/
namespace Tespy

/-- The exceptions that loading design point information raises
(network.py 1379-1528: `FileNotFoundError` of `pd.read_csv` and `open`,
`KeyError` of `.loc` and of dictionaries, `TESPyNetworkError`).  The messages
are left out. -/
inductive DsErr
  | fileNotFound | keyError | networkError
  deriving DecidableEq, Repr

/-- A float read from a file (`float(data[key])`, component.py 808;
`float(conn[var])`, network.py 1522).  Both infinities are one value: a
simplification. -/
inductive FNum (K : Type)
  | num (x : K) | nan | inf
  deriving DecidableEq, Repr

/-- How pandas infers the type of an index column (`pd.read_csv(...,
index_col=0)`, network.py 1307-1309, 1406, 1849): `num l` is the number a
label is read as, if it looks like one, and `str` the text of a number
(`index.astype(str)`, 1407, 1424, 1508).  Only whole numbers are considered:
a simplification. -/
structure PdIndex where
  num : String → Option ℕ
  str : ℕ → String

/-- An entry of an index: a text or a number (network.py 1307-1309, 1406). -/
inductive IxKey
  | text (l : String) | number (n : ℕ)
  deriving DecidableEq, Repr

/-- A row of a file: the column names with their values (network.py 1406,
1849; written by 2736-2738, 2752). -/
abbrev CsvRow (β : Type) := Dict String β

/-- A file with one row per label (network.py 2736-2738, 2752: `to_csv(...,
index=True)`). -/
abbrev CsvTable (β : Type) := List (String × CsvRow β)

/-- The index of a file after reading it: numbers, if all labels look like
numbers, texts otherwise (`pd.read_csv(..., index_col=0)`, network.py
1307-1309, 1406, 1849). -/
def readTable {β : Type} (pd : PdIndex) (t : CsvTable β) : List (IxKey × CsvRow β) :=
  if t.all (fun r => (pd.num r.1).isSome)
  then t.map fun r => (.number ((pd.num r.1).getD 0), r.2)
  else t.map fun r => (.text r.1, r.2)

/-- The text of an index entry (`index.astype(str)`, network.py 1407, 1424,
1508). -/
def IxKey.toText (pd : PdIndex) : IxKey → String
  | .text l => l
  | .number n => pd.str n

/-- A file read with the index converted to text (network.py 1406-1407,
1420-1425, 1508). -/
def strTable {β : Type} (pd : PdIndex) (t : CsvTable β) : CsvTable β :=
  (readTable pd t).map fun r => (r.1.toText pd, r.2)

/-- The row of a label (`.loc[label]`, network.py 1311, 1426, 1429, 1519).
Labels occurring twice, for which pandas provides a table, are left out: the
first row is taken. -/
def rowOf {α β : Type} [DecidableEq α] (t : List (α × β)) (l : α) : Option β :=
  (t.find? fun r => decide (r.1 = l)).map Prod.snd

/-- What a connection's column holds: a value and its unit; the fluid columns
have no unit (network.py 1520-1528: `conn[var]`, `conn[f"{var}_unit"]`,
`conn[fluid]`). -/
structure ConnCell (K : Type) where
  val : FNum K
  unit : String

/-- The files in a directory: one per class of components, one for all
connections, one for the busses (network.py 1398, 1443, 1846; written by
2727-2775).  `none`: the file does not exist. -/
structure DsFolder (K : Type) where
  comps : String → Option (CsvTable (FNum K))
  conns : Option (CsvTable (ConnCell K))
  busses : Option (List (String × List (String × FNum K)))

/-- The part of a component that takes part: its label, class, the names of
its parameters of the type `ComponentProperties`, whether it has any
parameter, `design_path`, `local_design`, `local_offdesign`, the values and
the design values of its parameters and `new_design` (component.py 100-130,
786-811). -/
structure DsComp (K : Type) where
  label : String
  cls : String
  keys : List String
  params : Bool
  path : Option String
  localDesign : Bool
  localOffdesign : Bool
  val : String → FNum K
  design : String → FNum K
  newDesign : Bool

/-- The part of a connection that takes part: label, `design_path`,
`local_offdesign`, the names of the fluids of `fluid.val` and the design
values of properties and fluids (connection.py 240-270, network.py
1494-1528). -/
structure DsConn (K : Type) where
  label : String
  path : Option String
  localOffdesign : Bool
  fluids : List String
  design : String → FNum K
  fluidDesign : String → FNum K

/-- The network: components, connections and for every bus the column `P_ref`
of its table of components; the key `none` is Python's `None`
(network.py 1441-1450). -/
structure DsNet (K : Type) where
  comps : List (DsComp K)
  conns : List (DsConn K)
  busses : Dict String (Dict (Option String) (FNum K))

/-- The directories (`os.path.join(path, ...)`, network.py 1299, 1398, 1413,
1443, 1846). -/
abbrev DsStore (K : Type) := String → Option (DsFolder K)

section
variable {K : Type}

/-- Value for a column of a row or `KeyError` (`data[key]`, component.py 808;
`conn[var]`, network.py 1522-1528). -/
def cell {β : Type} (row : CsvRow β) (key : String) : Except DsErr β :=
  match rowOf row key with
  | some v => .ok v
  | none => .error .keyError

/-- The loop over the parameters of `Component.set_parameters`, if design
values are set (component.py 803-808). -/
def fillKeys (row : CsvRow (FNum K)) :
    List String → (String → FNum K) → Except DsErr (String → FNum K)
  | [], d => .ok d
  | k :: ks, d =>
    match cell row k with
    | .error e => .error e
    | .ok v => fillKeys row ks fun k' => if k' = k then v else d k'

/-- `Component.set_parameters` (component.py 786-811); `off`: the mode is
offdesign. -/
def dsSetParams (off : Bool) (row : CsvRow (FNum K)) (c : DsComp K) : Except DsErr (DsComp K) :=
  let nd := if !off || c.localDesign then true else c.newDesign
  if (off && !c.localDesign) || (!off && c.localOffdesign) then
    match fillKeys row c.keys c.design with
    | .error e => .error e
    | .ok d => .ok { c with design := d, newDesign := nd }
  else
    .ok { c with design := fun k => if k ∈ c.keys then .nan else c.design k, newDesign := nd }

/-- The file of a class in a directory (`pd.read_csv`, network.py 1299,
1307-1309, 1398, 1406, 1413-1422) or `FileNotFoundError`. -/
def classFile (store : DsStore K) (dir cls : String) : Except DsErr (CsvTable (FNum K)) :=
  match (store dir).bind fun f => f.comps cls with
  | some t => .ok t
  | none => .error .fileNotFound

/-- The connections' file of a directory (`init_read_connections`,
network.py 1835-1850) or `FileNotFoundError`. -/
def connFile (store : DsStore K) (dir : String) : Except DsErr (CsvTable (ConnCell K)) :=
  match (store dir).bind fun f => f.conns with
  | some t => .ok t
  | none => .error .fileNotFound

/-- The row for a component found in the file of the class `cls`: from the
directory of the component, if it has one, otherwise from the file itself
(network.py 1412-1429).  Reading every file once makes no difference and is
left out. -/
def dataFor (pd : PdIndex) (store : DsStore K) (cls : String) (t : CsvTable (FNum K))
    (c : DsComp K) : Except DsErr (CsvRow (FNum K)) :=
  match c.path with
  | some p =>
    match classFile store p cls with
    | .error e => .error e
    | .ok t' => cell (strTable pd t') c.label
  | none => cell t c.label

/-- Replace the component of a label (the object in the network's table,
network.py 1410: `self.comps.loc[c_label, 'object']`). -/
def putComp (comps : List (DsComp K)) (c' : DsComp K) : List (DsComp K) :=
  comps.map fun c => if c.label = c'.label then c' else c

/-- The loop over the labels of the file of a class (network.py 1410-1432);
`t` is the whole file with its index as text. -/
def loadLabels (pd : PdIndex) (store : DsStore K) (cls : String) (t : CsvTable (FNum K)) :
    List String → List (DsComp K) → Except DsErr (List (DsComp K))
  | [], comps => .ok comps
  | l :: ls, comps =>
    match comps.find? (fun c => decide (c.label = l)) with
    | none => .error .keyError
    | some c =>
      match dataFor pd store cls t c with
      | .error e => .error e
      | .ok row =>
        match dsSetParams true row c with
        | .error e => .error e
        | .ok c' => loadLabels pd store cls t ls (putComp comps c')

/-- The loop over the classes of the components with parameters (network.py
1397-1432). -/
def loadClasses (pd : PdIndex) (store : DsStore K) (dir : String) :
    List String → List (DsComp K) → Except DsErr (List (DsComp K))
  | [], comps => .ok comps
  | k :: ks, comps =>
    match classFile store dir k with
    | .error e => .error e
    | .ok t =>
      let t := strTable pd t
      match loadLabels pd store k t (t.map Prod.fst) comps with
      | .error e => .error e
      | .ok comps' => loadClasses pd store dir ks comps'

/-- The classes of the components with parameters, each once
(network.py 1391-1397). -/
def dsClasses (comps : List (DsComp K)) : List String :=
  ((comps.filter fun c => c.params).map DsComp.cls).eraseDups

/-- The loop over the values of a bus (network.py 1448-1450):
`comps.loc[comp, "P_ref"] = value` creates the row, if there is none, and
`get_comp` provides `None` for labels the network does not have (399-403). -/
def loadBusRows (labels : List String) :
    List (String × FNum K) → Dict (Option String) (FNum K) → Dict (Option String) (FNum K)
  | [], b => b
  | (l, v) :: rest, b => loadBusRows labels rest (b.set (if l ∈ labels then some l else none) v)

/-- The loop over the busses of the file (network.py 1447-1450). -/
def loadBusses (labels : List String) :
    List (String × List (String × FNum K)) → Dict String (Dict (Option String) (FNum K)) →
      Except DsErr (Dict String (Dict (Option String) (FNum K)))
  | [], bs => .ok bs
  | (b, rows) :: rest, bs =>
    -- an empty bus of the file is never looked up (1448-1450)
    if rows.isEmpty then loadBusses labels rest bs
    else
      match bs.get? b with
      | none => .error .keyError
      | some tb => loadBusses labels rest (bs.set b (loadBusRows labels rows tb))

/-- The busses' part of `init_offdesign_params` (network.py 1441-1450). -/
def dsBusses (store : DsStore K) (dir : String) (labels : List String)
    (bs : Dict String (Dict (Option String) (FNum K))) :
    Except DsErr (Dict String (Dict (Option String) (FNum K))) :=
  match bs with
  | [] => .ok bs
  | _ :: _ =>
    match (store dir).bind fun f => f.busses with
    | none => .error .fileNotFound
    | some f => loadBusses labels f bs

/-- Names of the properties of connections (`fpd.keys()`, global_vars.py
17-100). -/
def dsProps : List String := ["m", "v", "p", "h", "T", "Td_bp", "vol", "x", "s"]

/-- Conversion of a float to SI: nan and inf stay (helpers.py `convert_to_SI`;
`conv` is its arithmetic, modelled in Model/Units.lean). -/
def FNum.toSI (conv : String → K → String → K) (p : String) : FNum K → String → FNum K
  | .num x, u => .num (conv p x u)
  | .nan, _ => .nan
  | .inf, _ => .inf

/-- Division of floats (`c.v.design / c.m.design`, network.py 1525); the
denominator is not zero there. -/
def FNum.div [Field K] : FNum K → FNum K → FNum K
  | .num x, .num y => .num (x / y)
  | .num _, .inf => .num 0
  | .inf, .num _ => .inf
  | _, _ => .nan

/-- The loop over the properties (network.py 1520-1523). -/
def fillProps (conv : String → K → String → K) (row : CsvRow (ConnCell K)) :
    List String → (String → FNum K) → Except DsErr (String → FNum K)
  | [], d => .ok d
  | p :: ps, d =>
    match cell row p with
    | .error e => .error e
    | .ok v => fillProps conv row ps fun q => if q = p then v.val.toSI conv p v.unit else d q

/-- The loop over the fluids (network.py 1527-1528). -/
def fillFluids (row : CsvRow (ConnCell K)) :
    List String → (String → FNum K) → Except DsErr (String → FNum K)
  | [], d => .ok d
  | f :: fs, d =>
    match cell row f with
    | .error e => .error e
    | .ok v => fillFluids row fs fun g => if g = f then v.val else d g

/-- The specific volume at the design point (network.py 1524-1527). -/
def volDesign [Field K] [DecidableEq K] (d : String → FNum K) : FNum K :=
  if d "m" = .num 0 then .inf else (d "v").div (d "m")

/-- `init_conn_design_params` (network.py 1494-1528). -/
def loadConn [Field K] [DecidableEq K] (pd : PdIndex) (conv : String → K → String → K)
    (t : CsvTable (ConnCell K)) (c : DsConn K) : Except DsErr (DsConn K) :=
  match rowOf (strTable pd t) c.label with
  | none => .error .networkError
  | some row =>
    match fillProps conv row dsProps c.design with
    | .error e => .error e
    | .ok d =>
      match fillFluids row c.fluids c.fluidDesign with
      | .error e => .error e
      | .ok fd =>
        .ok { c with design := fun q => if q = "vol" then volDesign d else d q, fluidDesign := fd }

/-- The file used for a connection: that of its own directory or that of the
network (network.py 1459-1473). -/
def connSource (store : DsStore K) (main : CsvTable (ConnCell K)) (c : DsConn K) :
    Except DsErr (CsvTable (ConnCell K)) :=
  match c.path with
  | some p => connFile store p
  | none => .ok main

/-- The loop over the connections (network.py 1456-1473); `main`: the file
of the network's design path, read before the loop (1453). -/
def dsConns [Field K] [DecidableEq K] (pd : PdIndex) (conv : String → K → String → K)
    (store : DsStore K) (main : CsvTable (ConnCell K)) :
    List (DsConn K) → Except DsErr (List (DsConn K))
  | [] => .ok []
  | c :: cs =>
    match connSource store main c with
    | .error e => .error e
    | .ok t =>
      match loadConn pd conv t c with
      | .error e => .error e
      | .ok c' =>
        match dsConns pd conv store main cs with
        | .error e => .error e
        | .ok cs' => .ok (c' :: cs')

/-- `init_offdesign_params` (network.py 1378-1476). -/
def loadDesign [Field K] [DecidableEq K] (pd : PdIndex) (conv : String → K → String → K)
    (store : DsStore K) (dir : String) (n : DsNet K) : Except DsErr (DsNet K) :=
  match loadClasses pd store dir (dsClasses n.comps) n.comps with
  | .error e => .error e
  | .ok comps =>
    match dsBusses store dir (n.comps.map DsComp.label) n.busses with
    | .error e => .error e
    | .ok bs =>
      match connFile store dir with
      | .error e => .error e
      | .ok main =>
        match dsConns pd conv store main n.conns with
        | .error e => .error e
        | .ok cs => .ok ⟨comps, cs, bs⟩

/-- The value an off-design parameter gets at the switch (network.py
1624-1629: `cp.get_attr(var).val = cp.get_attr(var).design`). -/
def offValue (c : DsComp K) (k : String) : FNum K := c.design k

/-- The design values of a component at a design calculation (network.py
1292-1361): with `local_offdesign` they are read from the component's own
directory, if it has one, and the index is not converted to text; otherwise
they are removed. -/
def localComp (pd : PdIndex) (store : DsStore K) (c : DsComp K) : Except DsErr (DsComp K) :=
  if c.localOffdesign then
    match c.path with
    | none => .ok { c with newDesign := false }
    | some p =>
      match classFile store p c.cls with
      | .error e => .error e
      | .ok t =>
        match rowOf (readTable pd t) (.text c.label) with
        | none => .error .keyError
        | some row =>
          match dsSetParams false row c with
          | .error e => .error e
          | .ok c' => .ok { c' with newDesign := false }
  else dsSetParams false [] c

/-- The design values of a connection with `local_offdesign` at a design
calculation (network.py 1243-1273). -/
def localConn [Field K] [DecidableEq K] (pd : PdIndex) (conv : String → K → String → K)
    (store : DsStore K) (c : DsConn K) : Except DsErr (DsConn K) :=
  match c.path with
  | none => .error .networkError
  | some p =>
    match connFile store p with
    | .error e => .error e
    | .ok t => loadConn pd conv t c

/-- The file of a class as `save_components` writes it (network.py
2741-2753): one row per component of the class with the values of its
parameters.  The columns are those of `ComponentProperties`: the result table
has no others (network.py 786-794 creates it from the same parameters, see
Model/ResultTables.lean). -/
def saveClass (comps : List (DsComp K)) (cls : String) : CsvTable (FNum K) :=
  (comps.filter fun c => decide (c.cls = cls)).map fun c =>
    (c.label, c.keys.map fun k => (k, c.val k))

end

end Tespy
