import Verif.Model.Bus

/-!
# The LaTeX report of a model (`document_model`)

A model of tools/document_models.py: what the report of a solved network contains and which files
are written.  The LaTeX code is a list of items (table cells, equations, links to equations,
figures), each of which stands for a piece of text; number formats, units and captions are left
out.  A run is the list of the actions of the function in their order: put out an item, write the
file of a plot, raise an exception.
-/

namespace Tespy.Report

/-- A string, given by its parts between the slashes (Python `str.split('/')`, which can be undone),
used for paths and for labels (tools/document_models.py 50, 582). -/
abbrev PathStr := List String

/-- concatenation of two strings (Python `+`, e.g. tools/document_models.py 585) -/
def cat : PathStr → PathStr → PathStr
  | [], b => b
  | [a], [] => [a]
  | [a], b :: bs => (a ++ b) :: bs
  | a :: a' :: as, b => a :: cat (a' :: as) b

/-- the string is empty or ends with a slash (Python `posixpath.join`, used in
tools/document_models.py 50, 1045) -/
def endsSlash (p : PathStr) : Bool := decide (p.getLast? = some "")

/-- the string starts with a slash (Python `posixpath.join`, used in
tools/document_models.py 50, 1045) -/
def isAbs (p : PathStr) : Bool := decide (p.head? = some "") && decide (2 ≤ p.length)

/-- `os.path.join` on a system with slashes (used in tools/document_models.py 50, 68, 1045, 1089) -/
def pathJoin (a b : PathStr) : PathStr :=
  if isAbs b then b else if endsSlash a then cat a b else cat a ("" :: b)

/-- the place a path stands for: is it absolute, and the names on the way; empty names and `.` are
passed over (paths of the operating system; `..` and links are not followed). Used by
tools/document_models.py 53. -/
def norm (p : PathStr) : Bool × List String :=
  (isAbs p, p.filter (fun s => !(s == "") && !(s == ".")))

/-- the directories that exist and the files written so far, last one at the end (the file system
as seen by tools/document_models.py 53, 68, 588) -/
structure FS where
  dirs : List (Bool × List String)
  files : List PathStr
  deriving DecidableEq

/-- does the directory exist; the working directory and the root always do (operating system, for
the `savefig` of tools/characteristics.py 193, 477) -/
def FS.hasDir (s : FS) (d : Bool × List String) : Bool := d.2.isEmpty || decide (d ∈ s.dirs)

/-- `os.makedirs(p, exist_ok=True)` (tools/document_models.py 53): all directories on the way -/
def FS.makedirs (s : FS) (p : PathStr) : FS :=
  { s with dirs := s.dirs ++ (norm p).2.inits.map (fun l => ((norm p).1, l)) }

/-- what stops the report: an attribute that does not exist, a key that does not exist, a file in a
directory that does not exist (Python exceptions raised below tools/document_models.py 28-70) -/
inductive DocErr
  | attributeError | keyError | fileNotFound
  deriving DecidableEq, Repr

/-- `CharLine.plot`, `CharMap.plot`: the `savefig` at the end (tools/characteristics.py 178-194,
461-478) -/
def FS.plot (s : FS) (f : PathStr) : Except DocErr FS :=
  if s.hasDir (norm f.dropLast) then .ok { s with files := s.files ++ [f] } else .error .fileNotFound

/-- the highlighting of a cell (`\iftab` is italic, `\bftab` is bold; tools/document_models.py
203-210) -/
inductive Style
  | normal | bold | italic
  deriving DecidableEq, Repr

/-- the equation of a bus for one component (tools/document_models.py 851-854):
`E_comp / eta` or `E_comp * eta` -/
inductive BusForm
  | quotient | product
  deriving DecidableEq, Repr

/-- the tables of the report: properties and fluids of the connections, the components of a class,
the busses (tools/document_models.py 278-286, 524-552, 746-898) -/
inductive Table
  | conn | fluid | cls (name : String) | bus
  deriving DecidableEq, Repr

/-- a piece of the report.  A cell without a value is printed as `-`
(tools/document_models.py 944). -/
inductive Item (K : Type)
  /-- a cell of a table (tools/document_models.py 347-352, 648-658) -/
  | cell (table : Table) (row : PathStr) (col : String) (style : Style) (val : Option K)
  /-- a cell of a parameter group or of a characteristic: is it specified (660-661) -/
  | mark (table : Table) (row : PathStr) (col : String) (set : Bool)
  /-- the head of a column, with the link to an equation if there is one (338-343, 708-713) -/
  | header (table : Table) (col : String) (link : Option String)
  /-- the head of the section of a user defined equation, with its link (481-485) -/
  | udeHead (label : PathStr) (link : PathStr)
  /-- an equation with its label (1005-1011) -/
  | equation (label : PathStr)
  /-- a figure that includes a file, with its label (977-983) -/
  | figure (file : PathStr) (label : PathStr)
  /-- specified total of a bus, or none: "used for postprocessing only" (882-891) -/
  | busTotal (bus : PathStr) (p : Option K)
  /-- the equation of a component on a bus (849-856) -/
  | busEq (bus row : PathStr) (form : BusForm)
  /-- the efficiency of a component on a bus: a link to a figure (809-811, 838-840) -/
  | busEta (bus row : PathStr) (link : PathStr)
  deriving DecidableEq

/-- an action of the run (tools/document_models.py 28-70) -/
inductive Act (K : Type)
  | emit (i : Item K)
  | plot (f : PathStr)
  | fail (e : DocErr)
  deriving DecidableEq

/-- the actions one after the other (Python execution of tools/document_models.py 28-70) -/
def run {K : Type} : List (Act K) → FS → Except DocErr (List (Item K) × FS)
  | [], s => .ok ([], s)
  | .emit i :: as, s =>
    match run as s with
    | .ok (is, s') => .ok (i :: is, s')
    | .error e => .error e
  | .plot f :: as, s =>
    match s.plot f with
    | .ok s' => run as s'
    | .error e => .error e
  | .fail e :: _, _ => .error e

/-- A connection: what is specified and what is the result (`nw.specifications['Connection']`,
`nw.results['Connection']`, networks/network.py 1196-1200, 1748-1761; tools/document_models.py
238-243).  A value that is not a number is `none`. -/
structure Conn (K : Type) where
  label : PathStr
  set : String → Bool
  val : String → Option K
  fluidSet : String → Bool
  fluidVal : String → Option K
  balance : Bool
  refSet : String → Bool

/-- the kinds of parameters of a component: `dc_cp`, `dc_gcp`/`dc_gcc`, `dc_cc`, `dc_cm`,
`dc_simple` (networks/network.py 795-801) -/
inductive Kind
  | prop | group (elements : List String) | line | map | simple
  deriving DecidableEq

/-- a parameter of a class of components: its name, its kind, and has it a function for the LaTeX
code of its equation (`latex`, tools/data_containers.py 197, 242, 305, 407, 441) -/
structure Param where
  name : String
  kind : Kind
  latex : Bool
  deriving DecidableEq

/-- a component: its label and for each parameter: is it specified, is it a variable, the result
(`prop_specifications`, `var_specifications`, ..., components/component.py 343-409; a
characteristic without an equation of its own has no entry there and counts as not specified) -/
structure Comp (K : Type) where
  label : PathStr
  set : String → Bool
  var : String → Bool
  val : String → Option K

/-- the components of one class: the parameters and the mandatory constraints of the class, the
latter with: has it a characteristic (`'char' in data`, tools/document_models.py 579-581) -/
structure Class (K : Type) where
  name : String
  params : List Param
  constraints : List (String × Bool)
  comps : List (Comp K)

/-- one component on a bus: the results (networks/network.py 632-638), the base, the
characteristic (an object, and is it constant), and what `bus_func_doc` gives: `none` if the class
has no such method, `some false` if it returns `None` (tools/document_models.py 789-857) -/
structure BusComp (K : Type) where
  label : PathStr
  compVal : K
  busVal : K
  eff : K
  base : BusBase
  char : ℕ
  charConst : Bool
  doc : Option Bool

/-- a bus (tools/document_models.py 769-787) -/
structure BusDoc (K : Type) where
  label : PathStr
  p : Option K
  comps : List (BusComp K)

/-- a user defined equation: its label, number of lines and of maps in its `latex` dictionary
(tools/helpers.py 357-363) -/
structure Ude where
  label : PathStr
  lines : ℕ
  maps : ℕ

/-- the network that is documented (`nw`, tools/document_models.py 28-70) -/
structure Net (K : Type) where
  mode : String
  conns : List (Conn K)
  fluids : List String
  udes : List Ude
  classes : List (Class K)
  busses : List (BusDoc K)

/-- the options of the report: `include_results`, `Connection.fluid.include_results`,
`Connection.params`, `params` of a class (tools/document_models.py 73-113) -/
structure Fmt where
  results : Bool
  fluidResults : Bool
  connParams : List String
  compParams : String → List String

/-- the defaults of the options (tools/document_models.py 87-112) -/
def defaults : Fmt := ⟨true, true, ["m", "p", "h", "T", "s"], fun _ => []⟩

/-- `label.replace(' ', '_')` (e.g. tools/document_models.py 584) -/
def us (l : PathStr) : PathStr :=
  l.map (fun s => String.ofList (s.toList.map (fun c => if c = ' ' then '_' else c)))

/-- `'figures/' + pre + label.replace(' ', '_') + post` (e.g. tools/document_models.py 582-584) -/
def localPath (pre : String) (label : PathStr) (post : String) : PathStr :=
  cat (cat ["figures", pre] (us label)) [post]

/-- `place_figures` (tools/document_models.py 1100-1124): rows of two figures -/
def placeFigures {α : Type} (figs : List α) : List α :=
  (List.range (figs.length / 2 + 1)).flatMap
    (fun row => (figs.drop (2 * row)).take (2 * (row + 1) - 2 * row))

variable {K : Type}

/-- the properties of a connection and their names (tools/global_vars.py 15-102) -/
def properties : List (String × String) :=
  [("m", "mass flow"), ("v", "volumetric flow"), ("p", "pressure"), ("h", "enthalpy"),
   ("T", "temperature"), ("Td_bp", "temperature difference to boiling point"),
   ("vol", "specific volume"), ("x", "vapor mass fraction"), ("s", "entropy")]

/-- the columns of `nw.specifications['Ref']` (networks/network.py 1199) -/
def refCols : List String := ["m_ref", "p_ref", "h_ref", "T_ref", "v_ref"]

/-- the loop over the references (tools/document_models.py 256-268): for a reference that is set
the attribute `val` of its container is read, which containers of references do not have
(tools/data_containers.py 520-529) -/
def refActs (n : Net K) : List (Act K) :=
  n.conns.flatMap fun c => refCols.flatMap fun r =>
    if c.refSet r then [.fail .attributeError] else []

/-- a value in the table of the properties: masked by the specifications if results are not
included, and masked if the property is not asked for and not specified
(tools/document_models.py 244-247, 272-276) -/
def connVal (f : Fmt) (n : Net K) (c : Conn K) (q : String) : Option K :=
  if !f.connParams.isEmpty && !(f.connParams.contains q) && !(n.conns.any (·.set q)) then none
  else if f.results || c.set q then c.val q else none

/-- `document_connection_params` (tools/document_models.py 296-361) on the table from which the
columns without any value have been dropped (278-281). Units, the column of the phase and the
dropping of rows are left out. -/
def connActs (f : Fmt) (n : Net K) : List (Act K) :=
  (properties.filter (fun q => n.conns.any (fun c => (connVal f n c q.1).isSome))).flatMap fun q =>
    let eq := n.conns.any (fun c => c.set q.1 && (connVal f n c q.1).isSome)
    [Act.emit (.header .conn q.1 (if eq then some ("Connection_" ++ q.2) else none))]
      ++ (if eq then [Act.emit (.equation ["Connection_" ++ q.2])] else [])
      ++ n.conns.map fun c =>
        Act.emit (.cell .conn c.label q.1
          (if c.set q.1 && f.results then .bold else .normal) (connVal f n c q.1))

/-- a value in the table of the fluids (tools/document_models.py 243-251) -/
def fluidVal (f : Fmt) (c : Conn K) (q : String) : Option K :=
  if (f.results && f.fluidResults) || c.fluidSet q then c.fluidVal q else none

/-- `document_connection_fluids` (tools/document_models.py 364-423) on the table from which the
columns without any value have been dropped (283-286). The table has one column per fluid and none
for the fluid balance, so the branch for the column `balance` is never taken (396-398). -/
def fluidActs (f : Fmt) (n : Net K) : List (Act K) :=
  (n.fluids.filter (fun q => n.conns.any (fun c => (fluidVal f c q).isSome))).flatMap fun q =>
    let eq := n.conns.any (fun c => c.fluidSet q && (fluidVal f c q).isSome)
    [Act.emit (.header .fluid q (if eq then some ("Connection_" ++ q) else none))]
      ++ (if eq then [Act.emit (.equation ["Connection_" ++ q])] else [])
      ++ n.conns.map fun c =>
        Act.emit (.cell .fluid c.label q
          (if eq && c.fluidSet q && f.results then .bold else .normal) (fluidVal f c q))

/-- `document_connections` (tools/document_models.py 220-293) -/
def documentConnections (f : Fmt) (n : Net K) : List (Act K) :=
  refActs n ++ connActs f n ++ fluidActs f n

/-- the files of one user defined equation, for its lines and its maps; counted from one
(tools/document_models.py 491-515) -/
def udeFiles (u : Ude) : List PathStr :=
  (List.range u.lines).map (fun i =>
    localPath "UDE_CharLine_" u.label ("_" ++ toString (i + 1) ++ ".pdf"))
  ++ (List.range u.maps).map (fun i =>
    localPath "UDE_CharMap_" u.label ("_" ++ toString (i + 1) ++ ".pdf"))

/-- the labels of the figures of one user defined equation: the same ones for lines and for maps
(tools/document_models.py 496, 511) -/
def udeLabels (u : Ude) : List PathStr :=
  (List.range u.lines ++ List.range u.maps).map (fun i =>
    cat ["UDE_CharLine_"] (cat u.label ["_" ++ toString (i + 1)]))

/-- `document_ude` (tools/document_models.py 458-521): the files are written to `path + local_path`
and included as `local_path` -/
def documentUde (path : PathStr) (n : Net K) : List (Act K) :=
  n.udes.flatMap fun u =>
    [Act.emit (.udeHead u.label (cat ["UserDefinedEquation_"] (us u.label))),
     Act.emit (.equation (cat ["UserDefinedEquation_"] (us u.label)))]
    ++ (udeFiles u).map (fun l => Act.plot (cat path l))
    ++ (placeFigures ((udeFiles u).zip (udeLabels u))).map
      (fun x => Act.emit (.figure x.1 x.2))

/-- the file of the characteristic of a mandatory constraint (tools/document_models.py 582-584) -/
def constraintFile (cls label : String) (c : Comp K) : PathStr :=
  localPath (cls ++ "_CharLine_" ++ label ++ "_") c.label ".pdf"

/-- the constraints of the class that have a characteristic, for each component
(tools/document_models.py 579-581) -/
def constraintChars (k : Class K) : List (String × Comp K) :=
  (k.constraints.filter (·.2)).flatMap fun x => k.comps.map fun c => (x.1, c)

/-- `get_component_mandatory_constraints` (tools/document_models.py 555-605): the files are written
to `path + local_path` and included as `local_path` -/
def constraintActs (path : PathStr) (k : Class K) : List (Act K) :=
  (constraintChars k).map (fun x => Act.plot (cat path (constraintFile k.name x.1 x.2)))
  ++ k.constraints.map (fun x => Act.emit (.equation [k.name ++ "_" ++ x.1]))
  ++ (placeFigures (constraintChars k)).map (fun x =>
      Act.emit (.figure (constraintFile k.name x.1 x.2)
        (cat ["CharLine_" ++ x.1 ++ "_"] x.2.label)))

/-- the file of a characteristic line or map of a component; no file for other parameters
(`get_char_specification`, tools/document_models.py 1127-1155, 1042-1044, 1086-1088) -/
def charFile (cls : String) (kind : Kind) (param : String) (c : Comp K) : Option (PathStr × PathStr) :=
  match kind with
  | .line => some (localPath (cls ++ "_CharLine_" ++ param ++ "_") c.label ".pdf",
      cat ["CharLine_" ++ param ++ "_"] c.label)
  | .map => some (localPath (cls ++ "_CharMap_" ++ param ++ "_") c.label ".pdf",
      cat ["CharMap_" ++ param ++ "_"] c.label)
  | _ => none

/-- the kind of a parameter of the class (`component.get_attr(element)`,
tools/document_models.py 685) -/
def Class.kindOf (k : Class K) (name : String) : Kind :=
  match k.params.find? (fun p => p.name == name) with
  | some p => p.kind
  | none => .simple

/-- is it a property (`dc_cp`, networks/network.py 796-797) -/
def Param.isProp (p : Param) : Bool := match p.kind with | .prop => true | _ => false

/-- the elements if it is a group (`dc_gcp`, `dc_gcc`, networks/network.py 798-799) -/
def Param.elements (p : Param) : Option (List String) :=
  match p.kind with | .group es => some es | _ => none

/-- is it a characteristic (`dc_cc`, `dc_cm`, networks/network.py 800-801) -/
def Param.isChar (p : Param) : Bool := match p.kind with | .line => true | .map => true | _ => false

/-- the groups that are specified for at least one component (tools/document_models.py 660) -/
def Class.setGroups (k : Class K) : List Param :=
  k.params.filter (fun p => p.elements.isSome && k.comps.any (·.set p.name))

/-- the characteristics that are specified for at least one component
(tools/document_models.py 661) -/
def Class.setChars (k : Class K) : List Param :=
  k.params.filter (fun p => p.isChar && k.comps.any (·.set p.name))

/-- the columns of the table: all properties, and the groups and characteristics that are specified
(tools/document_models.py 643-667) -/
def Class.columns (k : Class K) : List Param :=
  k.params.filter (·.isProp) ++ k.setGroups ++ k.setChars

/-- the elements of the groups that are specified (tools/document_models.py 678-692) -/
def Class.groupElements (k : Class K) : List String :=
  k.setGroups.flatMap (fun p => p.elements.getD [])

/-- is a column specified for at least one component: properties may be specified or variable
(tools/document_models.py 663-665, 703) -/
def Class.specified (k : Class K) (p : Param) : Bool :=
  k.comps.any (fun c => c.set p.name || (p.isProp && c.var p.name))

/-- a value of the table of the class (tools/document_models.py 634-641) -/
def compVal (f : Fmt) (k : Class K) (c : Comp K) (q : String) : Option K :=
  if f.results then
    if !(f.compParams k.name).isEmpty && !((f.compParams k.name).contains q)
        && !(k.comps.any (·.set q)) && !(k.comps.any (·.var q)) then none
    else c.val q
  else if c.set q || c.var q then c.val q else none

/-- one cell of the table of the class (tools/document_models.py 646-661) -/
def compCell (f : Fmt) (k : Class K) (p : Param) (c : Comp K) : Item K :=
  if p.isProp then
    .cell (.cls k.name) c.label p.name
      (if c.var p.name then .italic else if c.set p.name && f.results then .bold else .normal)
      (compVal f k c p.name)
  else .mark (.cls k.name) c.label p.name (c.set p.name)

/-- the figures of the class: of the characteristics that are specified, then of the elements of
the groups that are specified (tools/document_models.py 669-692).  If one component of the class
has the specification, there is a figure for all of them: the entry of the other components is not
`False` but not a number (660-661), which is true in the condition (672, 682). -/
def Class.figures (k : Class K) : List (PathStr × PathStr) :=
  (k.setChars.flatMap fun p => k.comps.filterMap fun c => charFile k.name p.kind p.name c)
  ++ (k.setGroups.flatMap fun p => k.comps.flatMap fun c =>
    (p.elements.getD []).filterMap fun e => charFile k.name (k.kindOf e) e c)

/-- the columns of the main table: without the elements of groups, and without those that are
specified and have no LaTeX equation (tools/document_models.py 694-715) -/
def Class.mainColumns (k : Class K) : List Param :=
  k.columns.filter (fun p => !(k.groupElements.contains p.name)
    && (!(k.specified p) || p.latex))

/-- the columns with an equation (tools/document_models.py 702-711) -/
def Class.eqColumns (k : Class K) : List Param :=
  k.mainColumns.filter (fun p => k.specified p)

/-- `get_component_specifications` (tools/document_models.py 608-743): the files are written to
`os.path.join(path, local_path)` -/
def specActs (f : Fmt) (path : PathStr) (k : Class K) : List (Act K) :=
  (k.figures.map (fun x => Act.plot (pathJoin path x.1)))
  ++ (k.mainColumns.flatMap fun p =>
      Act.emit (.header (.cls k.name) p.name
          (if k.specified p then some (k.name ++ "_" ++ p.name) else none))
        :: k.comps.map (fun c => Act.emit (compCell f k p c)))
  ++ (k.setGroups.flatMap fun g =>
      (k.columns.filter (fun p => (g.elements.getD []).contains p.name)).flatMap fun p =>
        k.comps.map (fun c => Act.emit (compCell f k p c)))
  ++ (k.eqColumns.map fun p => Act.emit (.equation [k.name ++ "_" ++ p.name]))
  ++ (if k.eqColumns.isEmpty then []
      else (placeFigures k.figures).map (fun x => Act.emit (.figure x.1 x.2)))

/-- `document_components` (tools/document_models.py 524-552) -/
def documentComponents (f : Fmt) (path : PathStr) (n : Net K) : List (Act K) :=
  n.classes.flatMap fun k => constraintActs path k ++ specActs f path k

/-- the file and the label of the figure of a bus characteristic
(tools/document_models.py 813-819) -/
def busFigure (mode : String) (l : PathStr) : PathStr × PathStr :=
  (localPath "Bus_CharLine_" l (mode ++ ".pdf"), cat ["Bus_CharLine_"] (cat l [mode]))

/-- the figures plotted so far, by characteristic and base (`chars_plotted`,
tools/document_models.py 767, 807-819) -/
abbrev Plotted := List ((ℕ × BusBase) × PathStr)

/-- the figure plotted so far for a key (tools/document_models.py 808) -/
def findPlot (pl : Plotted) (key : ℕ × BusBase) : Option PathStr :=
  (pl.find? (fun x => decide (x.1 = key))).map (·.2)

/-- one component of a bus (tools/document_models.py 789-857): the actions, the items of its row,
the new figure if there is one, the figures plotted after it.  The file of the figure is written to
`path + local_path`. -/
def busRow (f : Fmt) (path : PathStr) (mode : String) (b : PathStr) (c : BusComp K) (pl : Plotted) :
    List (Act K) × List (Item K) × List (PathStr × PathStr) × Plotted :=
  let vals : List (Item K) := if f.results then
    [.cell .bus c.label "component value" .normal (some c.compVal),
     .cell .bus c.label "bus value" .normal (some c.busVal),
     .cell .bus c.label "efficiency" .normal (some c.eff)] else []
  let fig := busFigure mode c.label
  let found := findPlot pl (c.char, c.base)
  let new := !c.charConst && found.isNone
  let acts : List (Act K) := (if new then [.plot (cat path fig.1)] else [])
    ++ (if c.doc.isNone then [.fail .attributeError] else [])
  let form : Item K := .busEq b c.label
    (match c.base with | .bus => .quotient | .component => .product)
  let eta : List (Item K) := if c.charConst then [] else [.busEta b c.label (found.getD fig.2)]
  (acts, vals ++ (if c.doc = some true then form :: eta else []),
    if new then [fig] else [], if new then pl ++ [((c.char, c.base), fig.2)] else pl)

/-- the components of a bus one after the other (tools/document_models.py 788-857) -/
def busRows (f : Fmt) (path : PathStr) (mode : String) (b : PathStr) :
    List (BusComp K) → Plotted →
    List (Act K) × List (Item K) × List (PathStr × PathStr) × Plotted
  | [], pl => ([], [], [], pl)
  | c :: cs, pl =>
    let r := busRow f path mode b c pl
    let rs := busRows f path mode b cs r.2.2.2
    (r.1 ++ rs.1, r.2.1 ++ rs.2.1, r.2.2.1 ++ rs.2.2.1, rs.2.2.2)

/-- one bus (tools/document_models.py 769-896).  For a bus without components the column of the
equations does not exist if results are included (859); a bus none of whose components has an
equation is left out (859-860). The equation of the sum has the same label for all busses (889). -/
def busActs [AddMonoid K] (f : Fmt) (path : PathStr) (mode : String) (b : BusDoc K) (pl : Plotted) :
    List (Act K) × Plotted :=
  let r := busRows f path mode b.label b.comps pl
  let total : List (Item K) := if f.results then
    [.cell .bus b.label "total component value" .normal (some (b.comps.map (·.compVal)).sum),
     .cell .bus b.label "total bus value" (if b.p.isSome then .bold else .normal)
       (some (b.comps.map (·.busVal)).sum)] else []
  let head : List (Item K) := .busTotal b.label b.p
    :: (if b.p.isSome then [.equation ["Bus_energy_flow_sum"]] else [])
  let figs : List (Item K) := (placeFigures r.2.2.1).map (fun x => Item.figure x.1 x.2)
  (r.1 ++ (if f.results && b.comps.isEmpty then [.fail .keyError] else [])
    ++ (if b.comps.any (fun c => decide (c.doc = some true)) then
          (head ++ total ++ r.2.1 ++ figs).map Act.emit
        else []),
   r.2.2.2)

/-- the busses one after the other (tools/document_models.py 746-898) -/
def documentBussesFrom [AddMonoid K] (f : Fmt) (path : PathStr) (mode : String) :
    List (BusDoc K) → Plotted → List (Act K)
  | [], _ => []
  | b :: bs, pl =>
    (busActs f path mode b pl).1 ++ documentBussesFrom f path mode bs (busActs f path mode b pl).2

/-- all actions of the report in their order (tools/document_models.py 60-64); the software
information is left out. -/
def documentActs [AddMonoid K] (f : Fmt) (path : PathStr) (n : Net K) : List (Act K) :=
  documentConnections f n ++ documentUde path n ++ documentComponents f path n
    ++ documentBussesFrom f path n.mode n.busses []

/-- `document_model` (tools/document_models.py 28-70): the report and the files written. -/
def documentModel [AddMonoid K] (f : Fmt) (path : PathStr) (n : Net K) (s : FS) :
    Except DocErr (List (Item K) × FS) :=
  run (documentActs f path n) (s.makedirs (pathJoin path ["figures"]))

/-- the parameters of a heat exchanger (components/heat_exchangers/base.py 231-296) -/
def heatExchangerParams : List Param :=
  [⟨"Q", .prop, true⟩, ⟨"kA", .prop, true⟩, ⟨"td_log", .prop, false⟩, ⟨"ttd_u", .prop, true⟩,
   ⟨"ttd_l", .prop, true⟩, ⟨"ttd_min", .prop, false⟩, ⟨"pr1", .prop, true⟩, ⟨"pr2", .prop, true⟩,
   ⟨"dp1", .prop, false⟩, ⟨"dp2", .prop, false⟩, ⟨"zeta1", .prop, true⟩, ⟨"zeta2", .prop, true⟩,
   ⟨"kA_char", .group ["kA_char1", "kA_char2"], true⟩, ⟨"kA_char1", .line, false⟩,
   ⟨"kA_char2", .line, false⟩, ⟨"eff_cold", .prop, false⟩, ⟨"eff_hot", .prop, false⟩,
   ⟨"eff_max", .prop, false⟩]

/-- the parameters of a turbine (components/turbomachinery/turbine.py 155-177) -/
def turbineParams : List Param :=
  [⟨"P", .prop, true⟩, ⟨"eta_s", .prop, true⟩, ⟨"eta_s_char", .line, true⟩, ⟨"pr", .prop, true⟩,
   ⟨"cone", .simple, true⟩]

/-- the mandatory constraints of a combustion engine, as far as they have a characteristic
(components/combustion/engine.py 286-310) -/
def engineConstraints : List (String × Bool) :=
  [("power_constraints", true), ("heat1_constraints", true), ("heat2_constraints", true),
   ("heatloss_constraints", true)]

end Tespy.Report
