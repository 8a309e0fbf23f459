import Mathlib.Algebra.Field.Defs
import Verif.Model.Topology
/-
Fluid wrapper branches (networks/network.py 735-766, `propagate_wrapper_to_target` and
`start_fluid_wrapper_branch` of all component classes) and the distribution of the fluids, mixing
rules and property back ends within them (networks/network.py 907-968).
-/
namespace Tespy

/-- A fluid wrapper branch: `{"connections": [...], "components": [...]}`
(networks/network.py 735-766, components/basics/source.py 85-95). -/
structure WBranch where
  conns : List ConnObj
  comps : List CompObj
  deriving DecidableEq, Repr

/-- `branch["connections"] += [o]; branch["components"] += cps` (components/component.py 319-327). -/
def WBranch.push (b : WBranch) (o : ConnObj) (cps : List CompObj) : WBranch :=
  ⟨b.conns ++ [o], b.comps ++ cps⟩

/-- How a component class passes a wrapper branch on (methods `propagate_wrapper_to_target`, see `Cls.wpass`). -/
inductive WPass
  | through | stop | spread | node | join | engine | reactor
  deriving DecidableEq, Repr

/-- The `propagate_wrapper_to_target` implementation of the class: `component.py` 319-327 (through),
`basics/sink.py` 77-79, `cycle_closer.py` 158-160 (stop), `nodes/splitter.py` 156-160, `separator.py`
205-209 (spread), `nodes/droplet_separator.py` 319-326, `drum.py` 350-351 (node), `nodes/merge.py`
340-347, `combustion/base.py` 235-242 (join), `combustion/engine.py` 334-349,
`reactors/fuel_cell.py` 761-773, `water_electrolyzer.py` 1084-1096 (reactor). -/
def Cls.wpass : Cls → WPass
  | .sink => .stop
  | .cycleCloser => .stop
  | .splitter => .spread
  | .separator => .spread
  | .dropletSeparator => .node
  | .drum => .node
  | .merge => .join
  | .combustionChamber => .join
  | .diabaticCombustionChamber => .join
  | .combustionEngine => .engine
  | .fuelCell => .reactor
  | .waterElectrolyzer => .reactor
  | _ => .through

/-- Class of a component; unknown classes inherit from `Component`
(components/component.py 319-327 and the overrides cited at `Cls.wpass`). -/
def CompObj.wpass (cp : CompObj) : WPass :=
  match Cls.ofName cp.ctype with
  | some k => k.wpass
  | none => .through

/-- The loops over the outlets (nodes/splitter.py 158-160, droplet_separator.py 323-326): `go` is the
recursive call, `cps` the components added with each outlet. The branch is changed in place, every
call sees what the calls before have added. -/
def wLoop (go : WBranch → PyRes WBranch) (cps : List CompObj) : List ConnObj → WBranch → PyRes WBranch
  | [], b => .ok b
  | o :: os, b =>
    match go (b.push o cps) with
    | .error e => .error e
    | .ok b' => wLoop go cps os b'

/-- go on with the outlet `r` of the component `cp` (components/component.py 319-327). -/
def wOn (go : WBranch → PyRes WBranch) (cp : CompObj) (b : WBranch) (r : PyRes ConnObj) :
    PyRes WBranch :=
  match r with
  | .error e => .error e
  | .ok o => go (b.push o [cp])

/-- `self.outl[k]` (Python list access, components/component.py 321-322). -/
def outAt (cs : List ConnObj) (cp : CompObj) (k : ℕ) : PyRes ConnObj :=
  match (outl cs cp)[k]? with
  | some o => .ok o
  | none => .error .indexError

/-- `component.propagate_wrapper_to_target(branch)` for the target of the last connection of the
branch. `fuel` bounds the recursion depth as in `propagate`
(components/component.py 319-327 and the overrides cited at `Cls.wpass`). -/
def wrapWalk (cs : List ConnObj) : ℕ → WBranch → PyRes WBranch
  | 0, _ => .error .recursionError
  | fuel + 1, b =>
    match b.conns.getLast? with
    | none => .error .indexError
    | some i =>
      match i.target.wpass with
      | .stop => .ok ⟨b.conns, b.comps ++ [i.target]⟩
      | .through => wOn (wrapWalk cs fuel) i.target b (paired cs i)
      | .spread =>
        wLoop (wrapWalk cs fuel) [] (outl cs i.target) ⟨b.conns, b.comps ++ [i.target]⟩
      | .node =>
        if i.target ∈ b.comps then .ok b
        else wLoop (wrapWalk cs fuel) [i.target] (outl cs i.target) b
      | .join =>
        if i.target ∈ b.comps then .ok b
        else wOn (wrapWalk cs fuel) i.target b (outAt cs i.target 0)
      | .engine =>
        if i ∈ (inl cs i.target).drop 2 then
          if i.target ∈ b.comps then .ok b
          else wOn (wrapWalk cs fuel) i.target b (outAt cs i.target 2)
        else wOn (wrapWalk cs fuel) i.target b (paired cs i)
      | .reactor =>
        if (inl cs i.target)[0]? = some i then wOn (wrapWalk cs fuel) i.target b (paired cs i)
        else .ok ⟨b.conns, b.comps ++ [i.target]⟩

/-- Connections at which `start_fluid_wrapper_branch` begins (networks/network.py 738-741,
basics/source.py 85-93, cycle_closer.py 145-153, reactors/fuel_cell.py 735-742,
water_electrolyzer.py 1057-1067). Simplified as `Cls.startPositions`. -/
def CompObj.wstarts (cs : List ConnObj) (cp : CompObj) : List ConnObj :=
  match Cls.ofName cp.ctype with
  | some .source => (outl cs cp).take 1
  | some .cycleCloser => (outl cs cp).take 1
  | some .fuelCell => ((outl cs cp).drop 1).take 1
  | some .waterElectrolyzer => (outl cs cp).drop 1
  | _ => []

/-- The branches of one start component (networks/network.py 743-744, methods cited at `CompObj.wstarts`). -/
def wStartBranches (cs : List ConnObj) (fuel : ℕ) (cp : CompObj) :
    List ConnObj → Dict String WBranch → PyRes (Dict String WBranch)
  | [], bs => .ok bs
  | o :: os, bs =>
    match wrapWalk cs fuel ⟨[o], [cp]⟩ with
    | .error e => .error e
    | .ok b => wStartBranches cs fuel cp os (Dict.set bs o.label b)

/-- The loop over the start components (networks/network.py 743-744). -/
def wAllBranches (cs : List ConnObj) (fuel : ℕ) :
    List CompObj → Dict String WBranch → PyRes (Dict String WBranch)
  | [], bs => .ok bs
  | cp :: cps, bs =>
    match wStartBranches cs fuel cp (cp.wstarts cs) bs with
    | .error e => .error e
    | .ok bs' => wAllBranches cs fuel cps bs'

/-- State of the merging loop: the contents of the branches by name and the names in `merged`.
`merged` is a shallow copy, so both dictionaries hold the same branch objects (746). -/
structure MergeSt where
  data : String → WBranch
  alive : List String

/-- `list(set(a + b))`; the order of a Python set is arbitrary, the theorems use membership only
(networks/network.py 758-762). -/
def unionList {α : Type} [DecidableEq α] (a b : List α) : List α := (a ++ b).dedup

/-- The first branch the inner loop merges into `name` (networks/network.py 750-756). -/
def partner (names : List String) (s : MergeSt) (name : String) : Option String :=
  names.find? (fun ob => ob ≠ name ∧ (∃ c ∈ (s.data name).conns, c ∈ (s.data ob).conns) ∧ ob ∈ s.alive)

/-- One pass of the outer loop (networks/network.py 747-764): the inner loop ends with the first
merge. -/
def mergeOne (names : List String) (s : MergeSt) (name : String) : MergeSt :=
  if name ∉ s.alive then s
  else
    match partner names s name with
    | none => s
    | some ob =>
      ⟨Function.update s.data name
        ⟨unionList (s.data name).conns (s.data ob).conns, unionList (s.data name).comps (s.data ob).comps⟩,
       s.alive.erase ob⟩

/-- The merging loop (networks/network.py 746-764). -/
def mergeAll (names : List String) (data : String → WBranch) : MergeSt :=
  names.foldl (mergeOne names) ⟨data, names⟩

/-- content of a branch by name (Python dictionary access, networks/network.py 746-764). -/
def branchData (bs : Dict String WBranch) (name : String) : WBranch :=
  (Dict.get? bs name).getD ⟨[], []⟩

/-- `Network.create_fluid_wrapper_branches` (networks/network.py 735-766): the values of the
dictionary. -/
def createWrapperBranches (cs : List ConnObj) (comps : List CompObj) (fuel : ℕ) :
    PyRes (List WBranch) :=
  match wAllBranches cs fuel comps [] with
  | .error e => .error e
  | .ok bs =>
    .ok ((mergeAll bs.keys (branchData bs)).alive.map (mergeAll bs.keys (branchData bs)).data)

/-! ### fluids of the branches -/

/-- What `propagate_fluid_wrappers` reads and writes of a connection: `fluid.val`, `fluid.val0`,
`fluid.is_set`, `fluid.engine`, `fluid.back_end`, `mixing_rule`, and for every fluid the engine and
the back end its wrapper has been created with. Sets are lists, their order is arbitrary (networks/network.py 907-968). -/
structure WFluid (K : Type) where
  val : Dict String K
  val0 : Dict String K
  isSet : List String
  engine : Dict String String
  backEnd : Dict String (Option String)
  rule : Option String
  wrapper : Dict String (String × Option String)

variable {K : Type} [Field K]

/-- `engines[f] = c.fluid.engine[f]` for the specified fluids of all connections
(networks/network.py 915-919), likewise for `back_ends` (920-921). -/
def collect {β : Type} (get : WFluid K → Dict String β) (st : ConnObj → WFluid K) :
    List ConnObj → Dict String β → Dict String β
  | [], d => d
  | c :: cs, d =>
    collect get st cs ((st c).isSet.foldl (fun d f =>
      match Dict.get? (get (st c)) f with
      | some e => Dict.set d f e
      | none => d) d)

/-- `set(any_fluids_set + any_fluids + any_fluids0)` (networks/network.py 935-938); `any_fluids0` is
made from `fluid.val`, not from `fluid.val0`. -/
def potentialFluids (st : ConnObj → WFluid K) (conns : List ConnObj) : List String :=
  (conns.flatMap (fun c => (st c).isSet) ++ conns.flatMap (fun c => (st c).val.keys)).dedup

/-- `set(mixing_rules)` (networks/network.py 923-927) -/
def mixingRules (st : ConnObj → WFluid K) (conns : List ConnObj) : List String :=
  (conns.filterMap (fun c => (st c).rule)).dedup

/-- The default values (networks/network.py 951-960) for one fluid, `n` potential fluids. -/
def defaultValue (n : ℕ) (w : WFluid K) (f : String) : WFluid K :=
  if f ∉ w.isSet ∧ f ∉ w.val.keys ∧ f ∉ w.val0.keys then
    { w with val := Dict.set w.val f (1 / (n : K)) }
  else if f ∉ w.isSet ∧ f ∉ w.val.keys then
    match Dict.get? w.val0 f with
    | some x => { w with val := Dict.set w.val f x }
    | none => w
  else w

/-- `Connection._create_fluid_wrapper` (connections/connection.py 596-609) for one fluid. -/
def createWrapper (w : WFluid K) (f : String) : WFluid K :=
  if f ∈ w.wrapper.keys then w
  else
    let e := (Dict.get? w.engine f).getD "CoolPropWrapper"
    let b := (Dict.get? w.backEnd f).getD none
    { w with
      engine := if f ∈ w.engine.keys then w.engine else Dict.set w.engine f e
      backEnd := if f ∈ w.backEnd.keys then w.backEnd else Dict.set w.backEnd f none
      wrapper := Dict.set w.wrapper f (e, b) }

/-- `d.update(e)` (Python function, networks/network.py 915-919). -/
def dictUpdateAll {β : Type} (d e : Dict String β) : Dict String β := e.foldl (fun d x => Dict.set d x.1 x.2) d

/-- The values of one connection: mixing rule and fractions (networks/network.py 947-960). -/
def setFluids (fluids : List String) (rule : String) (w : WFluid K) : WFluid K :=
  match fluids with
  | [f] => { w with rule := some rule, val := Dict.set w.val f 1 }
  | _ => fluids.foldl (defaultValue fluids.length) { w with rule := some rule }

/-- Everything written to one connection (networks/network.py 946-968). -/
def setConn (fluids : List String) (rule : String) (engines : Dict String String)
    (backEnds : Dict String (Option String)) (w : WFluid K) : WFluid K :=
  let w1 := setFluids fluids rule w
  let w2 := { w1 with engine := dictUpdateAll w1.engine engines, backEnd := dictUpdateAll w1.backEnd backEnds }
  w2.val.keys.foldl createWrapper w2

/-- One branch (networks/network.py 909-968). -/
def wrapBranch (conns : List ConnObj) (st : ConnObj → WFluid K) : PyRes (ConnObj → WFluid K) :=
  if 1 < (mixingRules st conns).length then .error .networkError
  else if potentialFluids st conns = [] then .error .networkError
  else .ok (fun c =>
    if c ∈ conns then
      setConn (potentialFluids st conns) ((mixingRules st conns).headD "ideal-cond")
        (collect WFluid.engine st conns []) (collect WFluid.backEnd st conns []) (st c)
    else st c)

/-- `Network.propagate_fluid_wrappers` (networks/network.py 907-968). -/
def propagateWrappers : List WBranch → (ConnObj → WFluid K) → PyRes (ConnObj → WFluid K)
  | [], st => .ok st
  | b :: bs, st =>
    match wrapBranch b.conns st with
    | .error e => .error e
    | .ok st' => propagateWrappers bs st'

end Tespy
