import Verif.Model.Controller

/-
What is expected of a controller, written over the history of what went in and out.
Histories are newest first.
-/

namespace Verif.Spec

open Verif.Go Verif.Model

/-- `Fifo cap h q`: history `h` is that of a first-in-first-out queue with room for `cap` events that
drops new events while it is full, and `q` is what the queue holds afterwards (oldest first). -/
inductive Fifo (cap : Nat) : List CEv → List Event → Prop
  | nil : Fifo cap [] []
  | accept {h q} (e : Event) : Fifo cap h q → q.length < cap → Fifo cap (.pushed e true :: h) (q ++ [e])
  | drop {h q} (e : Event) : Fifo cap h q → q.length = cap → Fifo cap (.pushed e false :: h) q
  | take {h q} (e : Event) : Fifo cap h (e :: q) → Fifo cap (.taken e :: h) q
  | trigger {h q} (t : Nat) : Fifo cap h q → Fifo cap (.trigger t :: h) q
  | save {h q} (t : Nat) : Fifo cap h q → Fifo cap (.save t :: h) q
  | saved {h q} : Fifo cap h q → Fifo cap (.saved :: h) q
  | arrived {h q} (k : Nat) (id : UInt8) (r : Report) : Fifo cap h q → Fifo cap (.arrived k id r :: h) q
  | applied {h q} (k : Nat) (ref : Nat) (r : Report) : Fifo cap h q → Fifo cap (.applied k ref r :: h) q
  | reply {h q} (bm : List Bool) : Fifo cap h q → Fifo cap (.reply bm :: h) q

/-- The events that were accepted, oldest first. -/
def accepted : List CEv → List Event
  | [] => []
  | .pushed e true :: h => accepted h ++ [e]
  | _ :: h => accepted h

/-- The events the user received, oldest first. -/
def taken : List CEv → List Event
  | [] => []
  | .taken e :: h => taken h ++ [e]
  | _ :: h => taken h

/-- The ids that were announced by `NodeDiscoverd`, oldest first, whether or not the event fitted. -/
def announced : List CEv → List Int
  | [] => []
  | .pushed (.discovered id) _ :: h => announced h ++ [id]
  | _ :: h => announced h

/-- The reports that were applied to node `ref`, oldest first. -/
def appliedTo (ref : Nat) : List CEv → List Report
  | [] => []
  | .applied _ ref' r :: h => if ref' = ref then appliedTo ref h ++ [r] else appliedTo ref h
  | _ :: h => appliedTo ref h

/-- The reports that came from the node with the given id, oldest first. -/
def arrivedFrom (id : UInt8) : List CEv → List Report
  | [] => []
  | .arrived _ id' r :: h => if id' = id then arrivedFrom id h ++ [r] else arrivedFrom id h
  | _ :: h => arrivedFrom id h

/-- The sender and the contents of report `k`. -/
def arrivalOf (k : Nat) : List CEv → Option (UInt8 × Report)
  | [] => none
  | .arrived k' id r :: h => if k' = k then some (id, r) else arrivalOf k h
  | _ :: h => arrivalOf k h

/-- How often report `k` was applied to a node. -/
def timesApplied (k : Nat) : List CEv → Nat
  | [] => 0
  | .applied k' _ _ :: h => timesApplied k h + (if k' = k then 1 else 0)
  | _ :: h => timesApplied k h

/-- How many updates were pushed. -/
def updates : List CEv → Nat
  | [] => 0
  | .pushed (.updated _) _ :: h => updates h + 1
  | _ :: h => updates h

/-- How many triggers the saver received. -/
def triggers : List CEv → Nat
  | [] => 0
  | .trigger _ :: h => triggers h + 1
  | _ :: h => triggers h

/-- How many saves were started. -/
def saves : List CEv → Nat
  | [] => 0
  | .save _ :: h => saves h + 1
  | _ :: h => saves h

/-- When the saver received its last trigger, if it has not saved since. -/
def lastTrigger : List CEv → Option Nat
  | [] => none
  | .trigger t :: _ => some t
  | .save _ :: _ => none
  | _ :: h => lastTrigger h

/-- Every save is caused by a trigger received ten seconds or more before, with no other trigger and no
other save in between. -/
def SavesOk : List CEv → Prop
  | [] => True
  | .save t :: h => (∃ t0, lastTrigger h = some t0 ∧ t0 + 10000 ≤ t) ∧ SavesOk h
  | _ :: h => SavesOk h

/-- Whether something was updated since the last save began. -/
def unsaved : List CEv → Bool
  | [] => false
  | .pushed (.updated _) _ :: _ => true
  | .save _ :: _ => false
  | _ :: h => unsaved h

/-- Whether a save has begun that has not written the file yet. -/
def saving : List CEv → Bool
  | [] => false
  | .save _ :: _ => true
  | .saved :: _ => false
  | _ :: h => saving h

/-- The ids a discovery reply asks for: bit `i` stands for node `i + 1`; bit 0 is the controller. -/
def Active (bm : List Bool) (id : Int) : Prop := ∃ i : Nat, i ≠ 0 ∧ bm[i]? = some true ∧ id = i + 1

end Verif.Spec
