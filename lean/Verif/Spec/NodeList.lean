import Verif.Model.NodeList

/- What a list of nodes is: for every id the node with that id that was added last. -/

namespace Verif.Spec

open Verif.Model

/-- The last of the pointers whose node has the id. -/
def lastWith (ids : Nat → Int) (id : Int) (ps : List Nat) : Option Nat := ps.reverse.find? fun p => ids p = id

/-- A node that can be added: no endpoint is nil, nobody holds its lock. -/
def Addable (n : LNode) : Prop := (∀ e ∈ n.endpoints, e ≠ none) ∧ n.locked = false

end Verif.Spec
