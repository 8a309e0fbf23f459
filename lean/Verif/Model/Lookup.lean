import Verif.Model.Tables
/-!
Creation of components, connections and subsystems, and access to the tables of a network by label
(connections/connection.py 232-311, components/component.py 102-120, components/subsystem.py 42-62,
networks/network.py 349-403).
-/
namespace Tespy

/-- An argument of a constructor which is expected to be a component: any other object is `other`
(connections/connection.py 236, 282-291: `_check_types`). -/
inductive CompArg
  | comp (c : CompObj)
  | other

/-- An argument which is expected to be a text, `None` if allowed: any other object is `other`
(connections/connection.py 232-256, components/component.py 105-120). -/
inductive TextArg
  | none
  | text (s : String)
  | other

/-- `Component.__init__`, check of the label (components/component.py 105-120): no `;`, `,` or `.`. -/
def componentLabel : TextArg → PyRes String
  | .text s => if ';' ∈ s.toList ∨ ',' ∈ s.toList ∨ '.' ∈ s.toList then .error .valueError else .ok s
  | _ => .error .valueError

/-- `f"{source.label}:{outlet_id}_{target.label}:{inlet_id}"` (connections/connection.py 240). -/
def defaultLabel (source : CompObj) (outlet : String) (target : CompObj) (inlet : String) : String :=
  source.label ++ ":" ++ outlet ++ "_" ++ target.label ++ ":" ++ inlet

/-- `Connection.__init__` (connections/connection.py 232-256) with `_check_types`, `_check_self_connect` and
`_check_connector_id` (282-311); `id` is the identity of the new object. Keyword arguments are passed to `set_attr`, which is
modelled elsewhere (`Verif.Model.Connection`). -/
def newConnection (id : ℕ) (source : CompArg) (outlet : String) (target : CompArg) (inlet : String) (label : TextArg) :
    PyRes ConnObj :=
  match source, target with
  | .comp s, .comp t =>
    if s = t then .error .connectionError
    else if outlet ∉ s.outlets then .error .valueError
    else if inlet ∉ t.inlets then .error .valueError
    else match label with
      | .none => .ok ⟨id, defaultLabel s outlet t inlet, s, outlet, t, inlet⟩
      | .text l => .ok ⟨id, l, s, outlet, t, inlet⟩
      | .other => .error .typeError
  | _, _ => .error .typeError

/-- `Network.get_conn` (networks/network.py 363-382). -/
def NetTab.getConn (s : NetTab) (label : String) : Option ConnObj := s.conns.find? (fun c => c.label == label)

/-- `Network.get_comp` (networks/network.py 384-403). -/
def NetTab.getComp (s : NetTab) (label : String) : Option CompObj := s.comps.get? label

/-- Loop of `Network.add_subsys` over the connections of a subsystem (networks/network.py 359-361): one call of `add_conns`
for each; an exception ends the loop. -/
def addOneByOne : List (Option ConnObj) → NetTab → Call NetTab
  | [], s => (s, none)
  | c :: cs, s =>
    match s.addConns [c] with
    | (s1, some e) => (s1, some e)
    | (s1, none) => addOneByOne cs s1

/-- `Network.add_subsys` (networks/network.py 349-361); a subsystem is the list of the values of its `conns`. -/
def NetTab.addSubsys : List (List (Option ConnObj)) → NetTab → Call NetTab
  | [], s => (s, none)
  | sub :: subs, s =>
    match addOneByOne sub s with
    | (s1, some e) => (s1, some e)
    | (s1, none) => NetTab.addSubsys subs s1

end Tespy
