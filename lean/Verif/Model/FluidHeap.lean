import Mathlib.Logic.Function.Basic
import Verif.Model.Presolve
import Verif.Model.Tables
/-
Containers and dictionaries of the fluid compositions, which the presolve lets connections
share and which the reset separates again (networks/network.py 1026-1139).
-/
namespace Tespy

/-- Fluid container (tools/data_containers.py 407-440); `valRef` is the dictionary object
in `fluid.val`. -/
structure FlBox where
  valRef : ℕ
  isSet : List String
  isVar : List String

/-- `ref c` is the container `c.fluid` of connection `c` (`ι` are the connections), `tmp c` the one in
`c._fluid_tmp`; `next` is a fresh address (networks/network.py 1026-1139: objects and their identity). -/
structure FlHeap (ι K : Type) where
  dict : ℕ → Dict String K
  box : ℕ → FlBox
  ref : ι → ℕ
  tmp : ι → Option ℕ
  next : ℕ

namespace FlHeap
variable {ι K : Type} [DecidableEq ι]

/-- mass fractions seen at connection `c` (connections/connection.py 572-609). -/
def val (H : FlHeap ι K) (c : ι) : Dict String K := H.dict (H.box (H.ref c)).valRef

/-- the content of the container of connection `c` (tools/data_containers.py 407-440). -/
def content (H : FlHeap ι K) (c : ι) : FluidBox K :=
  ⟨H.val c, (H.box (H.ref c)).isSet, (H.box (H.ref c)).isVar⟩

/-- `c._fluid_tmp = c.fluid; c.fluid = main_conn.fluid` (networks/network.py 1045-1047,
1103-1105) -/
def mapTo (main : ι) : List ι → FlHeap ι K → FlHeap ι K
  | [], H => H
  | c :: cs, H =>
    mapTo main cs
      { H with
        tmp := Function.update H.tmp c (some (H.ref c))
        ref := Function.update H.ref c (H.ref main) }

/-- Copy of the container of the first connection in `main_conn._fluid_tmp`
(networks/network.py 1036-1042, 1094-1101). Simplified: engine, back end and wrapper are
copied in the same way and not modelled. -/
def saveMain (main : ι) (H : FlHeap ι K) : FlHeap ι K :=
  { H with
    dict := Function.update H.dict H.next (H.val main)
    box := Function.update H.box H.next { H.box (H.ref main) with valRef := H.next }
    tmp := Function.update H.tmp main (some H.next)
    next := H.next + 1 }

/-- The dictionary of the first connection is updated in place, its flags are replaced
(networks/network.py 1049-1052, 1107-1110). -/
def writeMain (main : ι) (r : FluidBox K) (H : FlHeap ι K) : FlHeap ι K :=
  { H with
    dict := Function.update H.dict (H.box (H.ref main)).valRef r.val
    box := Function.update H.box (H.ref main)
      { H.box (H.ref main) with isSet := r.isSet, isVar := r.isVar } }

/-- One branch of `presolve_fluid_topology` (networks/network.py 1028-1110); `complete` is
the computation of the composition, see `presolveFluid`. -/
def presolveBranch (complete : FluidBox K → List (FluidBox K) → PyRes (FluidBox K))
    (main : ι) (rest : List ι) (H : FlHeap ι K) : Call (FlHeap ι K) :=
  match complete (H.content main) (rest.map H.content) with
  | .error e => (H, some e)
  | .ok r => (writeMain main r (mapTo main rest (saveMain main H)), none)

/-- all branches (networks/network.py 1028) -/
def presolve (complete : FluidBox K → List (FluidBox K) → PyRes (FluidBox K)) :
    List (ι × List ι) → FlHeap ι K → Call (FlHeap ι K)
  | [], H => (H, none)
  | b :: bs, H =>
    match H.presolveBranch complete b.1 b.2 with
    | (H', none) => presolve complete bs H'
    | (H', some e) => (H', some e)

/-- `reset_topology_reduction_specifications`, fluid part (networks/network.py 1135-1139).
The dictionary object of the shared container is handed over, it is not copied. -/
def resetConn (H : FlHeap ι K) (c : ι) : FlHeap ι K :=
  match H.tmp c with
  | none => H
  | some t =>
    { H with
      box := Function.update H.box t { H.box t with valRef := (H.box (H.ref c)).valRef }
      ref := Function.update H.ref c t
      tmp := Function.update H.tmp c none }

/-- the loop over the connections (networks/network.py 1127) -/
def reset (H : FlHeap ι K) (conns : List ι) : FlHeap ι K := conns.foldl resetConn H

/-- `c.fluid.val[f] = x` (connections/connection.py 480, networks/network.py 2263). -/
def assign (H : FlHeap ι K) (c : ι) (f : String) (x : K) : FlHeap ι K :=
  { H with dict := Function.update H.dict (H.box (H.ref c)).valRef (Dict.set (H.val c) f x) }

end FlHeap
end Tespy
