import Verif.Model.Controller

/-
What a save sees of a node that changes meanwhile. `json.MarshalIndent`, controller.go 150, reads the fields of a
node without the node's lock, so it also sees the node between two assignments of a locked region. In the machine
of Model/NodeM such a region is one step; here its assignments are listed one by one. Reads and assignments of one
field are taken as indivisible (of a string or slice header they are not).
-/

namespace Verif.Model

open Verif.Go

/-- The node after each assignment of the region after a manufacturer report, nodes/node.go 196-205. -/
def manufacturerParts (db : DB) (n : Node) (m : ManufacturerSpecific) : List Node :=
  let n1 := { n with manufacturer := some m }
  match db.device m.manufacturer m.type m.id with
  | none => [n1]
  | some d =>
    let n2 := { n1 with brand := d.brand }
    let n3 := { n2 with product := d.product }
    let n4 := { n3 with description := d.description }
    [n1, n2, n3, n4] ++
      (List.range d.classes.length).map fun k => { n4 with classes := some (n.classes.getD [] ++ d.classes.take (k + 1)) }

/-- The node after each assignment of the region after an endpoints report, nodes/request_endpoints.go 52-63. -/
def endpointParts (n : Node) (k : Nat) : List Node :=
  (List.range (k - 1 + 1)).map fun j => { n with endpoints := some (n.makeEndpoints (j + 1)) }

/-- The nodes between the assignments of a step; all other steps assign at most one of the fields in question. -/
def partsOf (db : DB) (s : CSt) (ref : Nat) (l : CLabel) : List Node :=
  match l with
  | .node r (.ident i (.report (.manufacturerSpecific m))) =>
    if r = ref ∧ (s.heap ref).ident i = .reply .manufacturer then manufacturerParts db (s.heap ref).node m else []
  | .node r (.ident i (.report (.multiChannelEndpoints m))) =>
    if r = ref ∧ (s.heap ref).ident i = .reply .endpoints then endpointParts (s.heap ref).node m.endpoints else []
  | _ => []

/-- What can be seen of node `ref` while the steps are taken. -/
inductive Seen (db : DB) (ref : Nat) : CSt → List CLabel → Node → Prop
  | now {s : CSt} {ls : List CLabel} : Seen db ref s ls (s.heap ref).node
  | part {s s' : CSt} {l : CLabel} {ls : List CLabel} {n : Node} : cStep db s l = some s' → n ∈ partsOf db s ref l →
      Seen db ref s (l :: ls) n
  | later {s s' : CSt} {l : CLabel} {ls : List CLabel} {n : Node} : cStep db s l = some s' → Seen db ref s' ls n →
      Seen db ref s (l :: ls) n

/-- What a save writes for a node while the steps are taken: the id and each of the six fields as it was seen at
some time. The states are left open. -/
structure Written (db : DB) (ref : Nat) (s : CSt) (ls : List CLabel) (n : Node) : Prop where
  id : ∃ x, Seen db ref s ls x ∧ n.id = x.id
  manufacturer : ∃ x, Seen db ref s ls x ∧ n.manufacturer = x.manufacturer
  brand : ∃ x, Seen db ref s ls x ∧ n.brand = x.brand
  product : ∃ x, Seen db ref s ls x ∧ n.product = x.product
  description : ∃ x, Seen db ref s ls x ∧ n.description = x.description
  classes : ∃ x, Seen db ref s ls x ∧ n.classes = x.classes
  endpoints : ∃ x, Seen db ref s ls x ∧ (n.endpoints.map fun es => es.map Endpoint.id) = x.endpoints.map fun es => es.map Endpoint.id

end Verif.Model
