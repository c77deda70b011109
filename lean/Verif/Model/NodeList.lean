import Verif.Model.Node

/-
nodes/list.go: the list of nodes on its own, for any caller, also one that passes nil.

Pointers to nodes are numbers that index a heap. Locks are booleans: held for ever by a call that
panicked, otherwise released before the call returns (calls do not overlap here; for calls that overlap
see Verif.Model.Controller).
-/

namespace Verif.Model

open Verif.Go

/-- A node as the list sees it: its id and its endpoints, of which some may be nil pointers; for the others
the node they refer back to. -/
structure LNode where
  id : Int
  endpoints : List (Option (Option Nat))
  locked : Bool := false
deriving DecidableEq, Repr, Inhabited

/-- nodes/list.go 9-14; `none` is a nil map (a list that was not made by `NewList`). -/
structure NList where
  nodes : Option (GoMap Int Nat)
  locked : Bool := false
deriving DecidableEq, Repr, Inhabited

/-- `NewList`, nodes/list.go 16-21 -/
def newList : NList := { nodes := some [] }

/-- The list and the nodes. -/
structure LSt where
  list : NList
  heap : Nat → LNode

/-- How a call ends. -/
inductive LRes (α : Type) where
  | ret (a : α) (s : LSt)
  | panic (s : LSt)
  /-- it waits for a lock that nobody will release -/
  | blocked

/-- The loop of `Add`, nodes/list.go 31-33: the endpoints before the first nil one are linked. -/
def linkAll (p : Nat) : List (Option (Option Nat)) → List (Option (Option Nat)) × Bool
  | [] => ([], true)
  | none :: r => (none :: r, false)
  | some _ :: r => (some (some p) :: (linkAll p r).1, (linkAll p r).2)

/-- `h[p] = n` -/
def setHeap (h : Nat → LNode) (p : Nat) (n : LNode) : Nat → LNode := fun q => if q = p then n else h q

/-- `Add`, nodes/list.go 23-38; `none` is a nil pointer. -/
def NList.add (s : LSt) (p : Option Nat) : LRes Unit :=
  if s.list.locked then .blocked
  else
    let m := s.list.nodes.getD []
    match p with
    | none => .panic { s with list := { nodes := some m, locked := true } }
    | some p =>
      let n := s.heap p
      if n.locked then .blocked
      else
        let es := linkAll p n.endpoints
        if es.2 then
          .ret () { list := { nodes := some (m.set n.id p) }, heap := setHeap s.heap p { n with endpoints := es.1 } }
        else
          .panic { list := { nodes := some m, locked := true }
                   heap := setHeap s.heap p { n with endpoints := es.1, locked := true } }

/-- `Get`, nodes/list.go 52-62: `none` is nil. -/
def NList.get (s : LSt) (id : Int) : LRes (Option Nat) :=
  if s.list.locked then .blocked
  else
    match (s.list.nodes.getD []).get id with
    | none => .ret none s
    | some p => if (s.heap p).locked then .blocked else .ret (some p) s

/-- `All`, nodes/list.go 40-50 -/
def NList.all (s : LSt) : LRes (Option (GoMap Int Nat)) :=
  if s.list.locked then .blocked
  else if (s.list.nodes.getD []).any fun e => (s.heap e.2).locked then .blocked
  else .ret s.list.nodes s

/-- A sequence of calls of `Add`; it ends when one does not return. -/
def NList.adds (s : LSt) : List (Option Nat) → LRes Unit
  | [] => .ret () s
  | p :: ps =>
    match NList.add s p with
    | .ret _ s => NList.adds s ps
    | r => r

end Verif.Model
