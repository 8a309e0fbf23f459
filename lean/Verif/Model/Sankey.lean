import Verif.Model.Py
import Mathlib.Algebra.Field.Defs
import Mathlib.Algebra.Group.Prod
import Mathlib.Algebra.Order.Group.Unbundled.Abs
import Mathlib.Data.List.Dedup
import Mathlib.Algebra.BigOperators.Group.List.Basic
/-!
Functional groups and Grassmann diagram of the exergy analysis (tools/analyses.py).

Simplifications: exact numbers without NaN; exergies, bus exergies and exergy destruction (including that of the busses,
see `Model/Exergy.lean`) are inputs; a component is on at most one of the busses (more raise, see `evaluateBusses`).
A DataFrame with the columns chemical, physical, massless is a dictionary from its index (target group, category) to
triples; the order of its rows is not modelled by `DataFrame.add`.
-/
namespace Tespy

/-- Row of a table: chemical, physical and massless exergy (`exergy_cats`, analyses.py 62). -/
abbrev Row3 (K : Type) := K × K × K

/-- Table of the flows leaving a group (tools/analyses.py 393-401). -/
abbrev STable (K : Type) := Dict (String × String) (Row3 K)

/-- `sankey_data` (tools/analyses.py 393-401). -/
abbrev Sankey (K : Type) := Dict String (STable K)

/-- Component: label, functional group, bus (label, base is bus, efficiency), `E_bus`, categories of the fluid at the first
outlet and inlet (`none`: there is none), exergy destruction including that of the bus
(tools/analyses.py 404-434, 527-569). -/
structure SkComp (K : Type) where
  label : String
  group : String
  on : Option (String × Bool × K)
  bus : Row3 K
  outCat : Option String
  inCat : Option String
  ED : K

/-- Connection: labels of source and target component, category of the fluid, exergies (tools/analyses.py 608-632). -/
structure SkConn (K : Type) where
  src : String
  tgt : String
  cat : String
  chem : K
  phys : K

/-- Input of the analysis. Busses are given by their labels (tools/analyses.py 64-105). -/
structure SkInput (K : Type) where
  fuel : List String
  product : List String
  loss : List String
  internal : List String
  comps : List (SkComp K)
  conns : List (SkConn K)

section
variable {K : Type} [Field K] [LinearOrder K]

/-- sum of all categories (tools/analyses.py 659-667). -/
def Row3.total (r : Row3 K) : K := r.1 + r.2.1 + r.2.2

/-- sum of the rows whose target satisfies a condition (tools/analyses.py 659-667). -/
def rowsSum (P : String → Prop) [DecidablePred P] (t : STable K) : Row3 K :=
  ((t.filter fun e => P e.1.1).map Prod.snd).sum

/-- new row with zeros if there is none, `+=` (analyses.py 537-540, 566-569, 623-632) -/
def tAdd (t : STable K) (k : String × String) (r : Row3 K) : STable K :=
  match t.get? k with
  | some x => t.set k (x + r)
  | none => t.set k r

/-- addition to a row of the table of a group (tools/analyses.py 537-540, 566-569, 623-632). -/
def skAdd (S : Sankey K) (a : String) (k : String × String) (r : Row3 K) : PyRes (Sankey K) :=
  match S.get? a with
  | none => .error .keyError
  | some t => .ok (S.set a (tAdd t k r))

/-- one turn of the loops of analyses.py 527-540 and 555-569 -/
def skBusRow (S : Sankey K) (a tgt : String) (cat : Option String) (value : K) (r : Row3 K) : PyRes (Sankey K) :=
  if value = 0 then .ok S
  else match cat with
    | none => .error .indexError
    | some c => skAdd S a (tgt, c) r

/-- the loops of analyses.py 527-540 and 555-569 over `E_bus.items()` -/
def skBusRows (S : Sankey K) (a tgt : String) (cat : Option String) (f : K → K) (b : Row3 K) : PyRes (Sankey K) :=
  match skBusRow S a tgt cat b.1 (f b.1, 0, 0) with
  | .error e => .error e
  | .ok S =>
    match skBusRow S a tgt cat b.2.1 (0, f b.2.1, 0) with
    | .error e => .error e
    | .ok S => skBusRow S a tgt (some "work") b.2.2 (0, 0, f b.2.2)

/-- `reserved_fkt_groups` (analyses.py 319-321) -/
def skReserved (x : SkInput K) : List String :=
  ["E_P", "E_F", "E_D", "E_L"] ++ (x.internal ++ x.fuel ++ x.product ++ x.loss)

/-- empty tables of the reserved labels (analyses.py 393-401) -/
def skInit (x : SkInput K) : Sankey K := (skReserved x).foldl (fun S l => S.set l []) []

/-- one component of the loop in `analyse` (analyses.py 404-434) with `evaluate_busses` (493-573) -/
def skComp (reserved : List String) (S : Sankey K) (c : SkComp K) : PyRes (Sankey K) :=
  if c.group ∈ reserved then .error .valueError
  else
    let S := if c.group ∈ S.keys then S else S.set c.group []
    match c.on with
    | none => .ok S
    | some (b, true, eff) => skBusRows S b c.group c.outCat (fun v => v / eff) c.bus
    | some (b, false, eff) => skBusRows S c.group b c.inCat (fun v => v * eff) c.bus

/-- the loop over the components (analyses.py 404-434) -/
def skComps (reserved : List String) : List (SkComp K) → Sankey K → PyRes (Sankey K)
  | [], S => .ok S
  | c :: cs, S =>
    match skComp reserved S c with
    | .error e => .error e
    | .ok S => skComps reserved cs S

/-- rows of the exergy destruction (analyses.py 579-583) -/
def skEDs (comps : List (SkComp K)) (S : Sankey K) : Sankey K :=
  S.map fun e => (e.1, e.2.set ("E_D", "E_D") (0, 0, ((comps.filter fun c => c.group = e.1).map (·.ED)).sum))

/-- `calculate_group_input_value` (analyses.py 659-667): a table with several rows of the group does not fit the shape of
the single row, pandas raises `ValueError`. -/
def skIn (g : String) : Sankey K → PyRes (Row3 K)
  | [] => .ok 0
  | e :: S =>
    match e.2.filter (fun r => r.1.1 = g) with
    | [] => skIn g S
    | [r] =>
      match skIn g S with
      | .error x => .error x
      | .ok v => .ok (r.2 + v)
    | _ => .error .valueError

/-- bus of fuel exergy (analyses.py 585-590) -/
def skFuel (S : Sankey K) (b : String) : PyRes (Sankey K) :=
  match skIn b S with
  | .error e => .error e
  | .ok v =>
    match S.get? b with
    | none => .error .keyError
    | some tb =>
      match S.get? "E_F" with
      | none => .error .keyError
      | some tF => .ok (S.set "E_F" (tF.set (b, "E_F") (rowsSum (fun _ => True) tb - v)))

/-- bus of product or loss exergy (analyses.py 593-606) -/
def skLeave (lab : String) (S : Sankey K) (b : String) : PyRes (Sankey K) :=
  match skIn b S with
  | .error e => .error e
  | .ok v =>
    match S.get? b with
    | none => .error .keyError
    | some tb => .ok (S.set b (tb.set (lab, lab) (v - rowsSum (fun _ => True) tb)))

/-- a loop whose body can raise (Python loop, tools/analyses.py 577-632). -/
def skLoop {α : Type} (f : Sankey K → α → PyRes (Sankey K)) : List α → Sankey K → PyRes (Sankey K)
  | [], S => .ok S
  | a :: l, S =>
    match f S a with
    | .error e => .error e
    | .ok S => skLoop f l S

/-- group of a component (`component_data.loc[label, 'group']`, analyses.py 616) -/
def skGroup (comps : List (SkComp K)) (l : String) : Option String :=
  (comps.find? fun c => c.label = l).map (·.group)

/-- turns of the three loops of analyses.py 608-614: groups, components of the group, connections leaving the component -/
def skPairs (comps : List (SkComp K)) (conns : List (SkConn K)) (groups : List String) : List (String × SkConn K) :=
  groups.flatMap fun g => (comps.filter fun c => c.group = g).flatMap fun c =>
    (conns.filter fun k => k.src = c.label).map fun k => (g, k)

/-- body of the loop (analyses.py 615-632): `target.label not in comps` means another group -/
def skConn (comps : List (SkComp K)) (S : Sankey K) (e : String × SkConn K) : PyRes (Sankey K) :=
  match skGroup comps e.2.tgt with
  | none => .error .keyError
  | some tg => if tg = e.1 then .ok S else skAdd S e.1 (tg, e.2.cat) (e.2.chem, e.2.phys, 0)

/-- `sankey_data` after `analyse` (tools/analyses.py 404-434, 577-632). -/
def skData (x : SkInput K) : PyRes (Sankey K) :=
  match skComps (skReserved x) x.comps (skInit x) with
  | .error e => .error e
  | .ok S =>
    match skLoop skFuel x.fuel (skEDs x.comps S) with
    | .error e => .error e
    | .ok S =>
      match skLoop (skLeave "E_P") x.product S with
      | .error e => .error e
      | .ok S =>
        match skLoop (skLeave "E_L") x.loss S with
        | .error e => .error e
        | .ok S => skLoop (skConn x.comps) (skPairs x.comps x.conns S.keys) S

/-- Row of `group_data` (tools/analyses.py 635-651). -/
structure GroupRow (K : Type) where
  name : String
  Ein : K
  Eout : K
  ED : K
deriving DecidableEq

/-- rows of `group_data` (analyses.py 635-651) -/
def skGroupRows (S : Sankey K) : List String → PyRes (List (GroupRow K))
  | [] => .ok []
  | g :: gs =>
    match skIn g S with
    | .error e => .error e
    | .ok v =>
      match S.get? g with
      | none => .error .keyError
      | some t =>
        match skGroupRows S gs with
        | .error e => .error e
        | .ok l =>
          let ED := Row3.total (rowsSum (fun n => n = "E_D") t)
          .ok (⟨g, Row3.total v, Row3.total v - ED, ED⟩ :: l)

/-- `analyse` with `create_group_data` (analyses.py 404-434, 577-656): `sankey_data` and `group_data` -/
def skAnalyse (x : SkInput K) : PyRes (Sankey K × List (GroupRow K)) :=
  match skData x with
  | .error e => .error e
  | .ok S =>
    match skGroupRows S (x.comps.map (·.group)).dedup with
    | .error e => .error e
    | .ok l => .ok (S, l)

/-! ### the diagram -/

/-- flows of at least the threshold (analyses.py 752-756) -/
def skVisible (eps : K) (S : Sankey K) : Sankey K :=
  S.map fun e => (e.1, e.2.filter fun r => eps ≤ |r.2.1| + |r.2.2.1| + |r.2.2.2|)

/-- `single_group_input` (analyses.py 669-676) -/
def skSources (g : String) (S : Sankey K) : List String :=
  (S.filter fun e => g ∈ e.2.map (fun r => r.1.1) ∧ e.1 ≠ g).map Prod.fst

/-- `a.add(b, fill_value=0)` (pandas function, tools/analyses.py 697-701). -/
def tMerge (a b : STable K) : STable K := b.foldl (fun t e => tAdd t e.1 e.2) a

/-- one transit group is merged into its source (analyses.py 697-701) -/
def skMerge (S : Sankey K) (s g : String) (ts tg : STable K) : Sankey K :=
  (S.set s ((tMerge ts tg).filter fun r => r.1.1 ≠ g)).erase g

/-- the loop of `remove_transit_groups` (analyses.py 690-709) over the groups; `rec` is the recursive call. -/
def skTransitLoop (reserved : List String) (rec : Sankey K → PyRes (Sankey K)) :
    List String → Sankey K → PyRes (Sankey K)
  | [], S => .ok S
  | g :: gs, S =>
    if g ∈ reserved then skTransitLoop reserved rec gs S
    else
      match S.get? g with
      | none => .error .keyError
      | some tg =>
        match skSources g S with
        | [s] =>
          if ((tg.map fun r => r.1.1).dedup).length = 1 then
            match S.get? s with
            | none => .error .keyError
            | some ts => rec (skMerge S s g ts tg)
          else skTransitLoop reserved rec gs S
        | [] => if tg = [] then skTransitLoop reserved rec gs (S.erase g) else skTransitLoop reserved rec gs S
        | _ => skTransitLoop reserved rec gs S

/-- `remove_transit_groups` (analyses.py 678-709); `fuel` bounds the depth of the recursion. -/
def skTransit (reserved : List String) : ℕ → Sankey K → PyRes (Sankey K)
  | 0, _ => .error .recursionError
  | n + 1, S => skTransitLoop reserved (skTransit reserved n) S.keys S

/-- default order of the nodes (analyses.py 760-766) -/
def skOrder (x : SkInput K) : List String :=
  ["E_F"] ++ x.fuel ++ (x.comps.map (·.group)).dedup ++ (x.internal ++ x.product ++ x.loss) ++ ["E_P", "E_L", "E_D"]

/-- `list.index` (tools/analyses.py 802-808). -/
def pyIndex (l : List String) (a : String) : PyRes ℕ :=
  if a ∈ l then .ok (l.idxOf a) else .error .valueError

/-- A link of the diagram: source and target node, value, category (tools/analyses.py 785-808). -/
structure SkLink (K : Type) where
  source : ℕ
  target : ℕ
  value : K
  cat : String
deriving DecidableEq

/-- links of one row: positive values only (analyses.py 802-808). Colours are not modelled. -/
def skRowLinks (order : List String) (src : ℕ) (r : (String × String) × Row3 K) : PyRes (List (SkLink K)) :=
  let vals := [r.2.1, r.2.2.1, r.2.2.2].filter (fun v => 0 < v)
  if vals = [] then .ok []
  else
    match pyIndex order r.1.1 with
    | .error e => .error e
    | .ok t => .ok (vals.map fun v => ⟨src, t, v, r.1.2⟩)

/-- links of the rows of one group (tools/analyses.py 799-808). -/
def skTableLinks (order : List String) (src : ℕ) : STable K → PyRes (List (SkLink K))
  | [] => .ok []
  | r :: t =>
    match skRowLinks order src r with
    | .error e => .error e
    | .ok l =>
      match skTableLinks order src t with
      | .error e => .error e
      | .ok l' => .ok (l ++ l')

/-- links (analyses.py 799-808) -/
def skLinks (order : List String) : Sankey K → PyRes (List (SkLink K))
  | [] => .ok []
  | e :: S =>
    match pyIndex order e.1 with
    | .error x => .error x
    | .ok src =>
      match skTableLinks order src e.2 with
      | .error x => .error x
      | .ok l =>
        match skLinks order S with
        | .error x => .error x
        | .ok l' => .ok (l ++ l')

/-- `generate_plotly_sankey_input` (analyses.py 711-810). `order = []`: default order. `depth`: limit of the recursion. -/
def skPlot (depth : ℕ) (x : SkInput K) (S : Sankey K) (order : List String) (eps : K) :
    PyRes (List (SkLink K) × List String) :=
  match skTransit (skReserved x) depth (skVisible eps S) with
  | .error e => .error e
  | .ok G =>
    if order = [] then
      match skLinks (skOrder x) G with
      | .error e => .error e
      | .ok l => .ok (l, skOrder x)
    else if ∀ n ∈ G.keys, n ∈ order then
      match skLinks order G with
      | .error e => .error e
      | .ok l => .ok (l, order)
    else .error .valueError

end
end Tespy
