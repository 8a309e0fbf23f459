import Verif.Model.WrapperBranches
import Verif.Spec.Branches
/-
Specification of the ways a fluid takes through a network, in terms of connector names only.
-/
namespace Tespy

/-- The fluid of connection `i` gets into connection `o`: both are attached to the same component
and the component passes (or mixes) the fluid from the inlet to the outlet. -/
def FluidPasses (i o : ConnObj) : Prop :=
  o.source = i.target ∧
  match i.target.wpass with
  | .through => ∃ num : ℕ, i.targetId = "in" ++ toString num ∧ o.sourceId = "out" ++ toString num
  | .stop => False
  | .spread => True
  | .node => True
  | .join => True
  | .engine => (i.targetId = "in1" ∧ o.sourceId = "out1") ∨ (i.targetId = "in2" ∧ o.sourceId = "out2") ∨
      ((i.targetId = "in3" ∨ i.targetId = "in4") ∧ o.sourceId = "out3")
  | .reactor => i.targetId = "in1" ∧ o.sourceId = "out1"

/-- Connections at which a new fluid enters: outlets of sources and cycle closers, the oxygen and
hydrogen outlets of electrolyzers, the water outlet of fuel cells. -/
def FluidStart (s : ConnObj) : Prop :=
  match Cls.ofName s.source.ctype with
  | some .source => True
  | some .cycleCloser => True
  | some .fuelCell => s.sourceId = "out2"
  | some .waterElectrolyzer => s.sourceId = "out2" ∨ s.sourceId = "out3"
  | _ => False

/-- The fluid of connection `s` gets to connection `c`. -/
inductive FluidReaches (cs : List ConnObj) (s : ConnObj) : ConnObj → Prop
  | start : FluidReaches cs s s
  | next {i o} : FluidReaches cs s i → i ∈ cs → o ∈ cs → FluidPasses i o → FluidReaches cs s o

/-- The fluid of `s` gets to a cooling inlet and to a combustion inlet of the same engine. -/
def CoolsAndBurns (cs : List ConnObj) (s : ConnObj) : Prop :=
  ∃ a ∈ cs, ∃ b ∈ cs, FluidReaches cs s a ∧ FluidReaches cs s b ∧ a.target = b.target ∧
    a.target.wpass = .engine ∧ (a.targetId = "in1" ∨ a.targetId = "in2") ∧
    (b.targetId = "in3" ∨ b.targetId = "in4")

end Tespy
