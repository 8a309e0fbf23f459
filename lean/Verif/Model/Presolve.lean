import Mathlib.Algebra.Order.Field.Basic
import Verif.Model.Tables
/-
Topology presolve of mass flow and fluid composition and its reset
(networks/network.py 970-1139). Containers are shared between connections by
reference: a heap maps container ids to contents.
-/
namespace Tespy

/-- Content of a mass flow container (tools/data_containers.py, `FluidProperties`),
restricted to the fields that matter here. -/
structure MBox (K : Type) where
  isSet : Bool
  val : K
  valSI : K
  unit : String
  deriving DecidableEq

/-- `ref c` is the container `c.m` of connection `c`, `tmp c` the container kept in
`c._m_tmp` (if the attribute exists), `box` the content of the containers
(networks/network.py 970-1024, 1126-1134: objects and their identity). -/
structure MHeap (K : Type) where
  box : ℕ → MBox K
  ref : ℕ → ℕ
  tmp : ℕ → Option ℕ

namespace MHeap
variable {K : Type}

/-- First loop over the connections of a branch (networks/network.py 977-996): number of
specified values, the last connection with a specification; error for a reference
(`mref c` is the connection referred to by a set `m_ref`) within the branch. -/
def scan (H : MHeap K) (mref : ℕ → Option ℕ) (branch : List ℕ) :
    List ℕ → ℕ → Option ℕ → PyRes (ℕ × Option ℕ)
  | [], n, main => .ok (n, main)
  | c :: cs, n, main =>
    let set := (H.box (H.ref c)).isSet
    match mref c with
    | some d =>
      if d ∈ branch then .error .networkError
      else H.scan mref branch cs (n + set.toNat) (if set then some c else main)
    | none => H.scan mref branch cs (n + set.toNat) (if set then some c else main)

/-- `c._m_tmp = c.m; c.m = main_conn.m` (networks/network.py 1003-1004, 1023-1024). -/
def mapTo (main : ℕ) : List ℕ → MHeap K → MHeap K
  | [], H => H
  | c :: cs, H =>
    mapTo main cs
      { H with
        tmp := Function.update H.tmp c (some (H.ref c))
        ref := Function.update H.ref c (H.ref main) }

/-- One branch of `presolve_massflow_topology` (networks/network.py 975-1024). -/
def presolveBranch (H : MHeap K) (mref : ℕ → Option ℕ) (branch : List ℕ) : Call (MHeap K) :=
  match H.scan mref branch branch 0 none with
  | .error e => (H, some e)
  | .ok (n, main) =>
    if n = 1 then
      match main with
      | some m => (mapTo m branch H, none)
      | none => (H, some .attributeError)
    else if n > 1 then (H, some .networkError)
    else
      match branch with
      | [] => (H, some .indexError)
      | m :: rest => (mapTo m rest H, none)

/-- `presolve_massflow_topology` (networks/network.py 970-1024). -/
def presolve (mref : ℕ → Option ℕ) : List (List ℕ) → MHeap K → Call (MHeap K)
  | [], H => (H, none)
  | b :: bs, H =>
    match H.presolveBranch mref b with
    | (H', some e) => (H', some e)
    | (H', none) => presolve mref bs H'

/-- One connection of `reset_topology_reduction_specifications`, mass flow part
(networks/network.py 1128-1134). -/
def resetConn (H : MHeap K) (c : ℕ) : MHeap K :=
  match H.tmp c with
  | none => H
  | some t =>
    let value := (H.box (H.ref c)).valSI
    let unit := (H.box (H.ref c)).unit
    { box := Function.update H.box t { H.box t with valSI := value, unit := unit }
      ref := Function.update H.ref c t
      tmp := Function.update H.tmp c none }

/-- `reset_topology_reduction_specifications` (networks/network.py 1126-1134). -/
def reset (H : MHeap K) : List ℕ → MHeap K
  | [] => H
  | c :: cs => (H.resetConn c).reset cs

/-- What the solver does to the containers: values change, the specification flags do
not (networks/network.py 2247-2263). -/
def solved (H : MHeap K) (newVal : ℕ → K) : MHeap K :=
  { H with box := fun b => { H.box b with valSI := newVal b } }

end MHeap

/-- Fluid composition container (tools/data_containers.py 407-440): mass fractions,
specified fluids, variable fluids. -/
structure FluidBox (K : Type) where
  val : Dict String K
  isSet : List String
  isVar : List String
  deriving DecidableEq

section fluid
variable {K : Type} [Field K] [LinearOrder K]

/-- `d[k]` for a key which is there. Simplified: 0 if it is not (specified fluids always
have a value) (Python dictionary access, networks/network.py 1063-1068). -/
def look (d : Dict String K) (k : String) : K := (d.get? k).getD 0

/-- `fixed_fractions` (networks/network.py 1063-1068). The specified fluids are distinct
at this point, so every key is written once and the dictionary is this list. -/
def fixedFractions (conns : List (FluidBox K)) (specs : List String) : Dict String K :=
  conns.flatMap (fun c => (specs.filter (· ∈ c.isSet)).map (fun f => (f, look c.val f)))

/-- `d.update(e)` (networks/network.py 1108) -/
def updateAll (d : Dict String K) : List (String × K) → Dict String K
  | [] => d
  | e :: es => updateAll (Dict.set d e.1 e.2) es

/-- `presolve_fluid_topology` for one branch (networks/network.py 1029-1110): the
container that all connections of the branch (`main :: rest`) share afterwards;
`potential` are the potential fluids of the first connection. -/
def presolveFluid (ERR : K) (potential : List String) (main : FluidBox K)
    (rest : List (FluidBox K)) : PyRes (FluidBox K) :=
  let conns := main :: rest
  let specs := conns.flatMap FluidBox.isSet
  if specs.length = 0 then
    if potential.length > 1 then .ok { main with isVar := main.val.keys }
    else
      match potential with
      | f :: _ => .ok { main with val := Dict.set main.val f 1 }
      | [] => .error .indexError
  else if ¬ specs.Nodup then .error .networkError
  else
    let fixed := fixedFractions conns specs
    let total := (fixed.map Prod.snd).sum
    let missing := main.val.keys.filter (fun f => f ∉ fixed.keys)
    if total > 1 + ERR then .error .valueError
    else if total < 1 - ERR then
      if (main.val.keys.length : ℤ) - fixed.length = 1 then
        match missing with
        | f :: _ =>
          let fixed' := fixed ++ [(f, 1 - total)]
          .ok { val := updateAll main.val fixed', isSet := fixed'.map Prod.fst, isVar := [] }
        | [] => .error .indexError
      else
        .ok { val := updateAll main.val fixed, isSet := fixed.map Prod.fst, isVar := missing }
    else
      let fixed' := fixed ++ missing.map (fun f => (f, 0))
      .ok { val := updateAll main.val fixed', isSet := fixed'.map Prod.fst, isVar := [] }

end fluid
end Tespy
