import Mathlib.Algebra.Field.Defs
import Verif.Model.Py
import Verif.Model.Bus
/-
Assembly of the linear equation system in every iteration of a calculation: residual vector
and jacobian matrix are allocated once per calculation and filled by the components, busses,
connections and user defined equations (networks/network.py 2018-2020, 2315-2318, 2389-2457).
-/
namespace Tespy

/-- Residual vector and jacobian matrix of a network, `self.residual` and `self.jacobian`
(networks/network.py 2018-2020). -/
structure EqSystem (K : Type) where
  res : ℕ → K
  jac : ℕ → ℕ → K

/-- The system at the start of a calculation (networks/network.py 2018, 2020). -/
def EqSystem.zero {K : Type} [Zero K] : EqSystem K := ⟨fun _ => 0, fun _ _ => 0⟩

/-- A component, connection or user defined equation as a source of equations. `X` is all that
its functions read in an iteration (variables, increment filter, iteration count).

`numEq` is `num_eq` (1 for a user defined equation); `const` are the derivatives written before
the first iteration (components/component.py 415-431, constraints with constant derivatives;
none for connections and user defined equations); `eval x` are the residuals (the arrays have
length `num_eq`, components/component.py 416, connections/connection.py 624) and the
assignments `jacobian[row, column] = value` in the order of execution (components/component.py
577-602, connections/connection.py 896-901, tools/helpers.py 368-370), or an exception. A user
defined equation writes `jacobian[column]`, here row 0. -/
structure EqSource (X K : Type) where
  numEq : ℕ
  const : List ((ℕ × ℕ) × K)
  eval : X → PyRes (List K × List ((ℕ × ℕ) × K))

/-- A bus as a source of one equation: `isSet` is `P.is_set`, `eval x` is the residual and the
derivatives, with their columns, which the components subtract one after the other
(connections/bus.py 422-426). -/
structure BusSource (X K : Type) where
  isSet : Bool
  eval : X → PyRes (K × List (ℕ × K))

/-- `Bus.solve` with the dictionary it leaves behind if a component raises an exception
(connections/bus.py 422-426): value or exception and derivatives of each component. -/
def busLoop {K : Type} [Field K] :
    List (PyRes K × List (ℕ × K)) → K → Dict ℕ K → Dict ℕ K × PyRes K
  | [], r, d => (d, .ok r)
  | (.error e, _) :: _, _, d => (d, .error e)
  | (.ok v, w) :: cs, r, d => busLoop cs (r - v) (jacSubs d w)

/-- The source of a bus with the value `p` (connections/bus.py 422-426): `X` are the values and
derivatives of the components. -/
def BusSource.ofComps {K : Type} [Field K] (p : K) :
    BusSource (List (PyRes K × List (ℕ × K))) K where
  isSet := true
  eval x := match (busLoop x p []).2 with
    | .error e => .error e
    | .ok r => .ok (r, x.flatMap Prod.snd)

/-- Assignments to the dictionary `jacobian` of an object (Python assignment, e.g. components/component.py 934-936). -/
def dictWrites {κ β : Type} [DecidableEq κ] (d : Dict κ β) (ws : List (κ × β)) : Dict κ β :=
  ws.foldl (fun d e => Dict.set d e.1 e.2) d

variable {X K : Type}

/-- `self.residual[sum_eq:sum_eq + num_eq] = residual` (networks/network.py 2397, 2415, 2432) -/
def EqSystem.setRes (s : EqSystem K) (start : ℕ) (r : List K) : EqSystem K :=
  { s with res := fun i => if start ≤ i then (r[i - start]?).getD (s.res i) else s.res i }

/-- `self.jacobian[rows, columns] = data` with the entries of the dictionary of an object
(networks/network.py 2400-2403, 2418-2421, 2435-2437). -/
def EqSystem.setJac (s : EqSystem K) (start : ℕ) (own : Dict (ℕ × ℕ) K) : EqSystem K :=
  { s with jac := fun i c =>
      if start ≤ i then (own.get? (i - start, c)).getD (s.jac i c) else s.jac i c }

/-- `Network.solve_components`, `Network.solve_connections`, `Network.solve_user_defined_eq`
(networks/network.py 2389-2438): `n` is `num_vars`, `start` is `sum_eq`; every object comes with
its dictionary `jacobian`, the result are the dictionaries afterwards and the system. The first
row advances only if the dictionary has entries. Rows and columns which do not exist raise
`IndexError`. -/
def solveSources (n : ℕ) (x : X) :
    ℕ → List (EqSource X K × Dict (ℕ × ℕ) K) → EqSystem K →
      PyRes (List (Dict (ℕ × ℕ) K) × EqSystem K)
  | _, [], s => .ok ([], s)
  | start, (o, own) :: os, s =>
    match o.eval x with
    | .error e => .error e
    | .ok rw =>
      if rw.1.length = o.numEq then
        if dictWrites own rw.2 = [] then
          match solveSources n x start os (s.setRes start rw.1) with
          | .error e => .error e
          | .ok out => .ok ([] :: out.1, out.2)
        else if ∀ e ∈ dictWrites own rw.2, start + e.1.1 < n ∧ e.1.2 < n then
          match solveSources n x (start + o.numEq) os
              ((s.setRes start rw.1).setJac start (dictWrites own rw.2)) with
          | .error e => .error e
          | .ok out => .ok (dictWrites own rw.2 :: out.1, out.2)
        else .error .indexError
      else .error .valueError

/-- Row of a bus (networks/network.py 2449-2454): residual and the entries of the dictionary. -/
def EqSystem.setBus (s : EqSystem K) (row : ℕ) (r : K) (own : Dict ℕ K) : EqSystem K :=
  { res := fun i => if i = row then r else s.res i,
    jac := fun i c => if i = row then (own.get? c).getD (s.jac i c) else s.jac i c }

/-- `Network.solve_busses` (networks/network.py 2440-2457): busses without given value are
skipped, the dictionary is set to zero after its entries have been copied. -/
def solveBusSources [Field K] (n : ℕ) (x : X) :
    ℕ → List (BusSource X K × Dict ℕ K) → EqSystem K → PyRes (List (Dict ℕ K) × EqSystem K)
  | _, [], s => .ok ([], s)
  | row, (b, own) :: bs, s =>
    if b.isSet then
      match b.eval x with
      | .error e => .error e
      | .ok rw =>
        if ∀ e ∈ jacSubs own rw.2, e.1 < n then
          match solveBusSources n x (row + 1) bs (s.setBus row rw.1 (jacSubs own rw.2)) with
          | .error e => .error e
          | .ok out => .ok ((jacSubs own rw.2).map (fun e => (e.1, 0)) :: out.1, out.2)
        else .error .indexError
    else
      match solveBusSources n x row bs s with
      | .error e => .error e
      | .ok out => .ok (own :: out.1, out.2)

/-- All sources of equations of a network in the order of its tables
(networks/network.py 2389-2457: the loops over components, busses, connections and user defined equations). -/
structure EqNet (X K : Type) where
  comps : List (EqSource X K)
  busses : List (BusSource X K)
  conns : List (EqSource X K)
  udes : List (EqSource X K)

/-- Numbers of equations (networks/network.py 1298-1300, 1652-1659, 2073). -/
def EqNet.numComp (net : EqNet X K) : ℕ := (net.comps.map EqSource.numEq).sum
/-- Number of equations of all connections, networks/network.py 1652-1659. -/
def EqNet.numConn (net : EqNet X K) : ℕ := (net.conns.map EqSource.numEq).sum
/-- Number of equations of all busses, networks/network.py 1298-1300. -/
def EqNet.numBus (net : EqNet X K) : ℕ := (net.busses.filter (·.isSet)).length

/-- Dictionaries `jacobian` of all sources and the system
(components/component.py 415, connections/bus.py 195, networks/network.py 2018-2020). -/
structure AsmState (K : Type) where
  comps : List (Dict (ℕ × ℕ) K)
  busses : List (Dict ℕ K)
  conns : List (Dict (ℕ × ℕ) K)
  udes : List (Dict (ℕ × ℕ) K)
  sys : EqSystem K

/-- State before the first iteration: the dictionaries of components and connections are new
(components/component.py 415, connections/connection.py 625), those of user defined equations
as well (networks/network.py 2081), those of the busses are left over from earlier calculations
(`busJac`, connections/bus.py 195). -/
def EqNet.start [Zero K] (net : EqNet X K) (busJac : List (Dict ℕ K)) : AsmState K where
  comps := net.comps.map (fun o => dictWrites [] o.const)
  busses := busJac
  conns := net.conns.map (fun o => dictWrites [] o.const)
  udes := net.udes.map (fun o => dictWrites [] o.const)
  sys := EqSystem.zero

/-- One iteration (networks/network.py 2315-2318): components, busses, connections, user
defined equations. `n` is `num_vars`, the number of rows and columns. -/
def EqNet.iterate [Field K] (net : EqNet X K) (n : ℕ) (x : X) (st : AsmState K) : PyRes (AsmState K) :=
  match solveSources n x 0 (net.comps.zip st.comps) st.sys with
  | .error e => .error e
  | .ok a =>
    match solveBusSources n x (net.numComp + net.numConn) (net.busses.zip st.busses) a.2 with
    | .error e => .error e
    | .ok b =>
      match solveSources n x net.numComp (net.conns.zip st.conns) b.2 with
      | .error e => .error e
      | .ok c =>
        match solveSources n x (net.numComp + net.numConn + net.numBus)
            (net.udes.zip st.udes) c.2 with
        | .error e => .error e
        | .ok d => .ok ⟨a.1, b.1, c.1, d.1, d.2⟩

/-- The iterations of a calculation (networks/network.py 2028-2030): `xs` are the states in
which the equations are evaluated. -/
def EqNet.run [Field K] (net : EqNet X K) (n : ℕ) : List X → AsmState K → PyRes (AsmState K)
  | [], st => .ok st
  | x :: xs, st =>
    match net.iterate n x st with
    | .error e => .error e
    | .ok st' => net.run n xs st'

end Tespy
