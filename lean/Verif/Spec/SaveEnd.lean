import Verif.Model.Persist
import Verif.Spec.Fair
import Verif.Spec.Ctl

/-
What the configuration file contains in an execution of a controller: `SaveConfigurationToFile` (controller.go 134-157) turns the
nodes into JSON one after the other and then writes the text.

A node is taken here as it is when the saver is done with it. While nodes do not change that is what the saver sees; what it sees
of nodes that change is the matter of C109. What a crash leaves of the file is the matter of C49.
-/

namespace Verif.Spec.SaveEnd

open Verif.Model Verif.Spec

/-- A save in progress, and the file. -/
structure FileAt where
  /-- the ids, fixed when the list is copied (nodes/list.go 73) -/
  keys : List Int
  /-- the nodes that were encoded -/
  acc : List Node
  /-- the file -/
  text : List Char

/-- What a step changes. -/
def FileAt.next (x : FileAt) (s : CSt) (l : Option CLabel) : FileAt :=
  match l, s.saver with
  | some (.saver .go), .iter => { x with keys := s.list.map Prod.fst, acc := [] }
  | some (.saver .go), .enc (ref :: _) => { x with acc := x.acc ++ [(s.heap ref).node] }
  | some (.saver .go), .write => { x with text := saveText (x.keys.zip x.acc) }
  | _, _ => x

/-- The file at moment `n` of an execution that begins with `x`. -/
def fileAt {db : DB} (e : Exec (cStep db)) (x : FileAt) : Nat → FileAt
  | 0 => x
  | n + 1 => (fileAt e x n).next (e.st n) (e.lab n)

/-- An identification at `p` goes on and has not pushed its last update yet (node.go 153-296); after that it only sets `identified`
(297-299), which is not saved. -/
def Underway (p : IdentAt) : Prop := p ≠ .absent ∧ p ≠ .mark ∧ p ≠ .done

/-- The discovery has a node at hand whose identification it has not started yet (controller.go 55-68). -/
def hasNode : DiscAt → Bool
  | .add _ _ | .locked _ _ | .writing _ _ | .unlock _ _ | .announce _ _ | .setup _ _ | .start _ _ => true
  | _ => false

/-- Something is going on that is followed by a save: an update came after the last save began, a save is in progress, the discovery
has a node at hand, or a node is being identified. -/
def Pending (s : CSt) : Prop :=
  unsaved s.hist = true ∨ saving s.hist = true ∨ hasNode s.disc = true ∨
    ∃ ref i, ref < s.nHeap ∧ Underway ((s.heap ref).ident i)

end Verif.Spec.SaveEnd
