/-
Preparation of the reaction in combustion chambers and engines: recognition of
fuels and gases by name, chemical formulas and lower heating values.
CoolProp's tables (aliases, formulas) are parameters.
-/
import Mathlib.Algebra.Field.Basic
import Verif.Model.Py

namespace Tespy

/-- `alias.replace(' ', '')` (tools/helpers.py 49, components/combustion/base.py
342-344). -/
def stripBlanks (s : String) : String := String.ofList (s.toList.filter (fun c => c ≠ ' '))

/-- `fluidalias_in_list(fluid, fluid_list)` (tools/helpers.py 48-50).
`aliases` is `CP.get_aliases`, which raises for names CoolProp does not know. -/
def aliasInList (aliases : String → PyRes (List String)) (fluid : String) (l : List String) :
    PyRes Bool :=
  match aliases fluid with
  | .error e => .error e
  | .ok as => .ok (as.any (fun a => decide (stripBlanks a ∈ l)))

/-- `combustion_gases` (tools/global_vars.py 104). -/
def combustionGases : List String :=
  ["methane", "ethane", "propane", "butane", "hydrogen", "nDodecane"]

/-- The loop collecting `self.fuel_list` over `all_fluids`
(components/combustion/base.py 253-257). -/
def collectFuels (aliases : String → PyRes (List String)) : List String → PyRes (List String)
  | [] => .ok []
  | f :: fs =>
    match aliasInList aliases f combustionGases with
    | .error e => .error e
    | .ok b =>
      match collectFuels aliases fs with
      | .error e => .error e
      | .ok r => .ok (if b then f :: r else r)

/-- `set(self.fuel_list)` (base.py 259).  Simplification: Python's order of the
elements of a set is arbitrary, the model keeps the order of the last
occurrences. -/
def toSet : List String → List String
  | [] => []
  | f :: fs => if f ∈ fs then toSet fs else f :: toSet fs

/-- The loop over `["O2", "CO2", "H2O", "N2"]` (base.py 279-291): an error for a
gas none of whose names is used; the name stored for the gas is always the one of
the list. -/
def checkGases (aliases : String → PyRes (List String)) (allFluids : List String) :
    List String → PyRes Unit
  | [] => .ok ()
  | g :: gs =>
    match aliasInList aliases g allFluids with
    | .error e => .error e
    | .ok false => .error .componentError
    | .ok true => checkGases aliases allFluids gs

/-- `s.split('}')` on the characters of the formula
(tools/fluid_properties/helpers.py 131-132). -/
def splitBrace : List Char → List (List Char)
  | [] => [[]]
  | c :: t =>
    if c = '}' then [] :: splitBrace t
    else match splitBrace t with
      | [] => [[c]]
      | x :: xs => (c :: x) :: xs

/-- `element.split('_{')` (helpers.py 134). -/
def splitSub : List Char → List (List Char)
  | [] => [[]]
  | [c] => [[c]]
  | c :: d :: t =>
    if c = '_' ∧ d = '{' then [] :: splitSub t
    else match splitSub (d :: t) with
      | [] => [[c]]
      | x :: xs => (c :: x) :: xs

/-- `int(text)` (helpers.py 135).  Simplification: only strings of decimal digits;
signs, blanks and underscores, which Python accepts as well, do not occur in
formulas. -/
def intOf (l : List Char) : PyRes ℕ :=
  if l = [] then .error .valueError
  else if l.all Char.isDigit then
    .ok (l.foldl (fun a c => 10 * a + (c.toNat - '0'.toNat)) 0)
  else .error .valueError

/-- The loop of `fluid_structure(fluid)` over the pieces of the formula
(helpers.py 130-137). -/
def structureLoop : List (List Char) → Dict String ℕ → PyRes (Dict String ℕ)
  | [], parts => .ok parts
  | e :: es, parts =>
    if e = [] then structureLoop es parts
    else match splitSub e with
      | el0 :: el1 :: _ =>
        match intOf el1 with
        | .error er => .error er
        | .ok n => structureLoop es (parts.set (String.ofList el0) n)
      | _ => .error .indexError

/-- `fluid_structure(fluid)` applied to the formula CoolProp returns
(helpers.py 105-137). -/
def fluidStructure (formula : String) : PyRes (Dict String ℕ) :=
  structureLoop (splitBrace formula.toList) []

/-- The table `hf` of molar formation enthalpies in kJ/mol
(base.py 331-340), with the names stored by `checkGases` (always `O2`, `CO2` and
`H2O`). -/
def formationEnthalpy {K : Type} [Field K] : Dict String K :=
  [("hydrogen", 0), ("methane", -746 / 10), ("ethane", -84), ("propane", -1038 / 10),
   ("butane", -1257 / 10), ("nDodecane", -2894 / 10), ("O2", 0), ("CO2", -39351 / 100),
   ("H2O", -241826 / 1000)]

/-- Entry `self.fuels[f]` (base.py 293-301). -/
structure FuelEntry (K : Type) where
  carbon : ℕ
  hydrogen : ℕ
  oxygen : ℕ
  lhv : K
  deriving DecidableEq

/-- `calc_lhv(f)` (base.py 303-358).  `molarMass` holds the fluids known to the
first combustion inlet (`inl[0].fluid.wrapper`).  Simplification: if several names
of the fuel are in the table, Python takes an arbitrary one, the model the first
of the table. -/
def calcLhv {K : Type} [Field K] (aliases : String → PyRes (List String))
    (molarMass : Dict String K) (f : String) (c h : ℕ) : PyRes K :=
  match aliases f with
  | .error e => .error e
  | .ok as =>
    match (formationEnthalpy (K := K)).filter
        (fun e => decide (e.1 ∈ as.map stripBlanks)) with
    | [] => .error .indexError
    | (_, hfFuel) :: _ =>
      match molarMass.getItem f with
      | .error e => .error e
      | .ok M =>
        .ok (-((h : K) / 2 * (-241826 / 1000) + (c : K) * (-39351 / 100)
          - (((c : K) + (h : K) / 4) * 0 + hfFuel)) / M * 1000)

/-- The loop filling `self.fuels` (base.py 292-301). -/
def fillFuels {K : Type} [Field K] (aliases : String → PyRes (List String))
    (formula : String → PyRes String) (molarMass : Dict String K) :
    List String → PyRes (Dict String (FuelEntry K))
  | [] => .ok []
  | f :: fs =>
    match formula f with
    | .error e => .error e
    | .ok txt =>
      match fluidStructure txt with
      | .error e => .error e
      | .ok st =>
        match calcLhv aliases molarMass f ((st.get? "C").getD 0) ((st.get? "H").getD 0) with
        | .error e => .error e
        | .ok v =>
          match fillFuels aliases formula molarMass fs with
          | .error e => .error e
          | .ok r =>
            .ok ((f, ⟨(st.get? "C").getD 0, (st.get? "H").getD 0, (st.get? "O").getD 0, v⟩) :: r)

/-- `setup_reaction_parameters` (base.py 251-301; used by the combustion chambers,
246, and by the engine, engine.py 368).  `allFluids` are the names of the fluids
at all inlets and all outlets of the component, with the cooling of the engine. -/
def setupReaction {K : Type} [Field K] (aliases : String → PyRes (List String))
    (formula : String → PyRes String) (molarMass : Dict String K) (allFluids : List String) :
    PyRes (Dict String (FuelEntry K)) :=
  match collectFuels aliases allFluids with
  | .error e => .error e
  | .ok fl =>
    if toSet fl = [] then .error .componentError
    else match checkGases aliases allFluids ["O2", "CO2", "H2O", "N2"] with
      | .error e => .error e
      | .ok _ => fillFuels aliases formula molarMass (toSet fl)

/-- `if f not in outconn.fluid.val: outconn.fluid.val[f] = 0`
(base.py 219-221). -/
def addMissing {K : Type} [Zero K] (d : Dict String K) (f : String) : Dict String K :=
  if f ∈ d.keys then d else d.set f 0

/-- The loop of `start_branch` over `["H2O", "CO2"]` (base.py 216-221), on the
composition of the outlet. -/
def addProducts {K : Type} [Zero K] (d : Dict String K) : Dict String K :=
  addMissing (addMissing d "H2O") "CO2"

/-- A combustion inlet: mass flow and composition `fluid.val` (components/combustion/base.py 600-621). -/
structure FeedStream (K : Type) where
  m : K
  val : Dict String K

/-- Amount of substance of one named fluid in the inlets, as computed by the
equations of the chamber (`stoichiometry`, base.py 604-608 for the fuels and
617-621 for oxygen): `KeyError` if the name is not used at an inlet. -/
def molarInflow {K : Type} [Field K] (molarMass : Dict String K) (name : String) :
    List (FeedStream K) → PyRes K
  | [] => .ok 0
  | s :: ss =>
    match s.val.getItem name with
    | .error e => .error e
    | .ok x =>
      match molarMass.getItem name with
      | .error e => .error e
      | .ok M =>
        match molarInflow molarMass name ss with
        | .error e => .error e
        | .ok n => .ok (s.m * x / M + n)

/-- The molar inflows of all fuels, then of oxygen, in the order the equations
read them (base.py 600-621); the oxygen is looked up under the name `O2`. -/
def molarInflows {K : Type} [Field K] (molarMass : Dict String K) (feeds : List (FeedStream K)) :
    List String → PyRes (Dict String K × K)
  | [] =>
    match molarInflow molarMass "O2" feeds with
    | .error e => .error e
    | .ok n => .ok ([], n)
  | f :: fs =>
    match molarInflow molarMass f feeds with
    | .error e => .error e
    | .ok n =>
      match molarInflows molarMass feeds fs with
      | .error e => .error e
      | .ok (r, o) => .ok ((f, n) :: r, o)

end Tespy
