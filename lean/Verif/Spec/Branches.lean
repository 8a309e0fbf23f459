import Verif.Model.Topology
/-
Specification for the branch search, in terms of connector names only.
-/
namespace Tespy

/-- The stream of connection `i` goes on in connection `o`: both are attached to the same
component and the component passes the stream from the inlet to the outlet. -/
def Continues (i o : ConnObj) : Prop :=
  o.source = i.target ∧
  match i.target.pass with
  | .through => ∃ num : ℕ, i.targetId = "in" ++ toString num ∧ o.sourceId = "out" ++ toString num
  | .stop => False
  | .fanout => True
  | .drum => i.targetId = "in1"
  | .engine => (i.targetId = "in1" ∧ o.sourceId = "out1") ∨ (i.targetId = "in2" ∧ o.sourceId = "out2")
  | .reactor => i.targetId = "in1" ∧ o.sourceId = "out1"

/-- Connections at which a mass flow branch begins. -/
def BranchStart (s : ConnObj) : Prop :=
  match Cls.ofName s.source.ctype with
  | some .source => True
  | some .cycleCloser => True
  | some .merge => True
  | some .separator => True
  | some .combustionChamber => True
  | some .diabaticCombustionChamber => True
  | some .combustionEngine => s.sourceId = "out3"
  | some .fuelCell => s.sourceId = "out2"
  | some .waterElectrolyzer => s.sourceId = "out2" ∨ s.sourceId = "out3"
  | _ => False

/-- Connections downstream of a branch start. -/
inductive Downstream (cs : List ConnObj) : ConnObj → Prop
  | start {s} : s ∈ cs → BranchStart s → Downstream cs s
  | next {i o} : Downstream cs i → o ∈ cs → Continues i o → Downstream cs o

/-- A network as it is after the topology check: connections with unique labels, attached
to declared connectors of listed components of the shipped classes, both checks
passed. -/
structure Accepted (cs : List ConnObj) (comps : List CompObj) : Prop where
  conns : checkConns cs = .ok ()
  compsOk : checkComponents cs comps = .ok ()
  declared : ∀ c ∈ cs, c.sourceId ∈ c.source.outlets ∧ c.targetId ∈ c.target.inlets
  listed : ∀ c ∈ cs, c.source ∈ comps ∧ c.target ∈ comps
  classes : ∀ cp ∈ comps, ∃ k, cp.IsA k
  labels : (cs.map ConnObj.label).Nodup
  distinct : comps.Nodup

end Tespy
