import Mathlib.Data.List.Dedup
import Mathlib.Order.Defs.LinearOrder
import Verif.Model.ResultTables
import Verif.Model.Lookup

/-!
`Network.print_results` (networks/network.py 2533-2661): which tables are printed, with which rows, values and colours.

Simplifications: a printed cell is the number (nan is `none`) together with its colour instead of a string with escape
sequences; columns with texts (phase) are left out as in Model/ResultTables.lean; the layout of `tabulate` and the choice of
the escape sequences are not modelled.
-/
namespace Tespy

variable {K : Type}

/-- Colours of `print_results`: none, specified, outside of the limits, variable (networks/network.py 2539-2544). -/
inductive Mark
  | plain
  | set
  | err
  | var
  deriving DecidableEq, Repr

/-- A printed cell: colour and number (networks/network.py 2648-2661). -/
abbrev PCell (K : Type) := Mark × Option K

/-- A parameter as `print_components` sees it (tools/data_containers.py 226-259). -/
structure PLim (K : Type) where
  minVal : K
  maxVal : K
  isVar : Bool
  isSet : Bool

/-- The objects at the time of the printout: `printout` of components, connections and busses, parameters of components,
`is_set` and `val` of connection properties, `P.is_set` of busses (networks/network.py 2575-2615, 2643-2661). -/
structure PView (K : Type) where
  comp : CompObj → Bool
  conn : ConnObj → Bool
  bus : LabObj → Bool
  lim : CompObj → String → PLim K
  spec : ConnObj → String → Bool
  specVal : ConnObj → String → Option K
  busSet : LabObj → Bool

/-- A printed table (networks/network.py 2554-2624). -/
inductive PTable (K : Type)
  | comps (ctype : String) (cols : List String) (rows : Dict String (List (PCell K)))
  | conns (rows : Dict String (List (PCell K)))
  | bus (label : String) (rows : Dict String (List (PCell K)))

/-- Comparisons with nan are false (networks/network.py 2651-2652). -/
def outside [LinearOrder K] [Add K] [Sub K] (err : K) (p : PLim K) : Option K → Bool
  | none => false
  | some v => decide (v < p.minVal - err) || decide (v > p.maxVal + err)

/-- `print_components` for one parameter (networks/network.py 2643-2661); `none` is the nan of components without
printout. -/
def printCell [LinearOrder K] [Add K] [Sub K] (err : K) (printout colored : Bool) (p : PLim K) (v : Option K) :
    Option (PCell K) :=
  if printout then
    if !colored then some (.plain, v)
    else if outside err p v then some (.err, v)
    else if p.isVar then some (.var, v)
    else if p.isSet then some (.set, v)
    else some (.plain, v)
  else none

/-- Cells of a row, column by column (networks/network.py 2560-2564); `get_comp` returns `None` for unknown labels, which
has no attribute `printout`. -/
def printRow [LinearOrder K] [Add K] [Sub K] (err : K) (v : PView K) (colored : Bool) (s : NetTab) (label : String)
    (cols : List String) (row : List (Option K)) : PyRes (List (Option (PCell K))) :=
  match s.getComp label with
  | none => .error .attributeError
  | some cp => .ok ((cols.zip row).map (fun cx => printCell err (v.comp cp) colored (v.lim cp cx.1) cx.2))

/-- `df.dropna(how='all')` (networks/network.py 2566): rows of nan only are removed. -/
def dropNa (rows : Dict String (List (Option (PCell K)))) : Dict String (List (PCell K)) :=
  (rows.filter (fun e => e.2.any Option.isSome)).map (fun e => (e.1, e.2.map (fun c => c.getD (.plain, none))))

/-- All rows of the table of a class (networks/network.py 2560-2566). -/
def printRows [LinearOrder K] [Add K] [Sub K] (err : K) (v : PView K) (colored : Bool) (s : NetTab) (cols : List String) :
    Dict String (List (Option K)) → PyRes (Dict String (List (Option (PCell K))))
  | [] => .ok []
  | e :: es => match printRow err v colored s e.1 cols e.2 with
    | .error x => .error x
    | .ok r => match printRows err v colored s cols es with
      | .error x => .error x
      | .ok rs => .ok ((e.1, r) :: rs)

/-- Table of one class (networks/network.py 2554-2576): nothing is printed without cells or without rows left. -/
def printClass [LinearOrder K] [Add K] [Sub K] (err : K) (v : PView K) (colored : Bool) (s : NetTab)
    (t : Dict String (RTable K)) (ctype : String) : PyRes (List (PTable K)) :=
  match t.get? ctype with
  | none => .error .keyError
  | some tb =>
    if tb.rows.length * tb.cols.length > 0 then
      match printRows err v colored s tb.cols tb.rows with
      | .error x => .error x
      | .ok rows => if (dropNa rows).length > 0 then .ok [.comps ctype tb.cols (dropNa rows)] else .ok []
    else .ok []

/-- Loop over the classes (networks/network.py 2554). -/
def printClasses [LinearOrder K] [Add K] [Sub K] (err : K) (v : PView K) (colored : Bool) (s : NetTab)
    (t : Dict String (RTable K)) : List String → PyRes (List (PTable K))
  | [] => .ok []
  | c :: cs => match printClass err v colored s t c with
    | .error x => .error x
    | .ok a => match printClasses err v colored s t cs with
      | .error x => .error x
      | .ok b => .ok (a ++ b)

/-- Columns of the printed table of connections (networks/network.py 2579). -/
def connPrintCols : List String := ["m", "p", "h", "T", "x"]

/-- Value in a column of a row (networks/network.py 2579, 2601-2603). -/
def cellAt (cols : List String) (row : List (Option K)) (c : String) : Option K :=
  (((cols.zip row).find? (fun e => e.1 = c)).map Prod.snd).getD none

/-- Rows of the connections (networks/network.py 2581-2592): specified cells show the value of the specification;
`get_conn` returns `None` for unknown labels. -/
def printConns (v : PView K) (colored : Bool) (s : NetTab) (cols : List String) :
    Dict String (List (Option K)) → PyRes (Dict String (List (PCell K)))
  | [] => .ok []
  | e :: es => match s.getConn e.1 with
    | none => .error .attributeError
    | some c => match printConns v colored s cols es with
      | .error x => .error x
      | .ok rs =>
        if !v.conn c then .ok rs
        else .ok ((e.1, connPrintCols.map (fun p =>
          if colored && v.spec c p then (Mark.set, v.specVal c p) else (Mark.plain, cellAt cols e.2 p))) :: rs)

/-- Columns of the printed table of a bus (networks/network.py 2601-2603). -/
def busPrintCols : List String := ["component value", "bus value", "efficiency"]

/-- Table of a bus (networks/network.py 2599-2624): `df.loc['total']` replaces a row of that name or is appended; it is
the sum of the columns without nan, the efficiency is nan. -/
def printBus [AddCommMonoid K] (v : PView K) (colored : Bool) (t : Dict String (RTable K)) (b : LabObj) :
    PyRes (List (PTable K)) :=
  if v.bus b then
    match t.get? b.label with
    | none => .error .keyError
    | some tb =>
      if busPrintCols.all (fun c => decide (c ∈ tb.cols)) then
        let sum := fun c => sumSkip (tb.rows.map (fun e => cellAt tb.cols e.2 c))
        let rows : Dict String (List (PCell K)) :=
          tb.rows.map (fun e => (e.1, busPrintCols.map (fun c => (Mark.plain, cellAt tb.cols e.2 c))))
        .ok [.bus b.label (rows.set "total" [(.plain, some (sum "component value")),
          (if colored && v.busSet b then .set else .plain, some (sum "bus value")), (.plain, none)])]
      else .error .keyError
  else .ok []

/-- Loop over the busses (networks/network.py 2599). -/
def printBusses [AddCommMonoid K] (v : PView K) (colored : Bool) (t : Dict String (RTable K)) :
    List LabObj → PyRes (List (PTable K))
  | [] => .ok []
  | b :: bs => match printBus v colored t b with
    | .error x => .error x
    | .ok a => match printBusses v colored t bs with
      | .error x => .error x
      | .ok c => .ok (a ++ c)

/-- `self.comps['comp_type'].unique()` (networks/network.py 2554): first occurrences in order. -/
def uniqueTypes (r : ResNet K) : List String := (r.comps.map (fun e => e.2.ctype)).reverse.dedup.reverse

/-- `Network.print_results` (networks/network.py 2533-2629). The attribute `results` exists from the creation of the network
on (networks/network.py 194), so the check at its beginning never fails. -/
def ResNet.print [LinearOrder K] [AddCommGroup K] (err : K) (v : PView K) (colored : Bool) (r : ResNet K) :
    PyRes (List (PTable K)) :=
  match printClasses err v colored r.tab r.tables (uniqueTypes r) with
  | .error x => .error x
  | .ok a => match r.tables.get? "Connection" with
    | none => .error .keyError
    | some tb =>
      if connPrintCols.all (fun c => decide (c ∈ tb.cols)) then
        match printConns v colored r.tab tb.cols tb.rows with
        | .error x => .error x
        | .ok rows => match printBusses v colored r.tables (r.busses.map Prod.snd) with
          | .error x => .error x
          | .ok b => .ok (a ++ (if rows.length > 0 then [.conns rows] else []) ++ b)
      else .error .keyError

end Tespy
