import Verif.Model.Controller

/-
zwave-example/example.go: a program that uses a running controller. Its main goroutine receives the events and looks
the nodes up; every web request is a goroutine of its own (net/http) that reads the node list.

The look-ups go through `List.Get` and `List.All`, which copy the list with its lock (see `Model/Controller`).

Simplified: printing a node under its read lock (49-51 and 55-57) is one step, which waits until nobody holds the
lock for writing; a request that reads several nodes reads them one after the other, in the order in which the map
was ranged over (encoding/json sorts by key); /nodes/<id>/<action> is not here (`Model/Example`). What the log
prints, the 500 answers (`Model/Example`) and the web server itself are left out.
-/

namespace Verif.Model

open Verif.Go

/-- `e.Address`, events/node_discoverd.go 3-5 and events/node_updated.go 3-5 -/
def Event.addr : Event → Int
  | .discovered id => id
  | .updated id => id

/-- Where the main goroutine is, example.go 43-63. -/
inductive LoopAt where
  /-- 45: `<-z.GetNextEvent()` -/
  | wait
  /-- 50 and 56: `z.Nodes.Get(e.Address)` is about to copy the list -/
  | got (e : Event)
  /-- list.go 56: the copied lock was free; `l.nodes[id]` -/
  | look (e : Event)
  /-- 51-53 and 57-59: `znode.RLock()`, `log.Printf`, `znode.RUnlock()` -/
  | print (e : Event) (ref : Nat)
  /-- list.go 53: `RLock` on a copy that was made while the lock was held -/
  | stuck (e : Event)
deriving DecidableEq, Repr, Inhabited

/-- What a reading request asks for. -/
inductive WebAsk where
  /-- GET /nodes, example.go 66-77 -/
  | all
  /-- GET /nodes/<id>, example.go 79-95 -/
  | one (id : Int)
deriving DecidableEq, Repr, Inhabited

/-- Where the goroutine of a request is. -/
inductive ReqAt where
  | absent
  /-- 70 and 87: `z.Nodes.All()` or `z.Nodes.Get(id)` is about to copy the list -/
  | call (a : WebAsk)
  /-- the copied lock was free; the map is read (list.go 44-49 and example.go 70; list.go 56-61) -/
  | look (a : WebAsk)
  /-- 75 and 93: the nodes that are still to be encoded; the first is being read. `done`: those that were -/
  | enc (a : WebAsk) (done todo : List Nat)
  /-- the answer 200 with these nodes -/
  | shown (a : WebAsk) (refs : List Nat)
  /-- 88-91: the answer 404 -/
  | missing (id : Int)
  /-- list.go 41 and 53: `RLock` on a copy that was made while the lock was held -/
  | stuck (a : WebAsk)
deriving DecidableEq, Repr, Inhabited

/-- The program: the controller and those who use it. -/
structure USt where
  ctl : CSt
  loop : LoopAt
  /-- ghost: the events that were dealt with, oldest first -/
  handled : List Event
  nReq : Nat
  req : Nat → ReqAt
  /-- a fatal error in the code of the example -/
  crashed : Option Panic

/-- A step of the program. -/
inductive ULabel where
  /-- the controller (all but `take`, which is a step of the main goroutine) -/
  | ctl (l : CLabel)
  /-- the main goroutine -/
  | loop
  /-- a request comes in -/
  | open (a : WebAsk)
  /-- request `k` goes on -/
  | req (k : Nat)
  /-- delivery `d` writes a state map while request `k` is ranging over it -/
  | raceDeliver (k d : Nat)
  /-- alarm pulse `j` of node `ref` writes a state map while request `k` is ranging over it -/
  | racePulse (k ref j : Nat)
deriving DecidableEq, Repr, Inhabited

/-- A step of the main goroutine, example.go 43-63. -/
def loopStep (db : DB) (s : USt) : Option USt :=
  match s.loop with
  | .wait =>
    match s.ctl.queue with
    | [] => none
    | e :: _ => (cStep db s.ctl .take).map fun c => { s with ctl := c, loop := .got e }
  | .got e => some { s with loop := if s.ctl.disc.locks then .stuck e else .look e }
  | .look e =>
    if s.ctl.disc.writes ∧ s.ctl.list ≠ [] then some { s with crashed := some .mapRace }
    else
      match s.ctl.list.get e.addr with
      | none => some { s with crashed := some .nilDeref }
      | some ref => some { s with loop := .print e ref }
  | .print e ref =>
    if (s.ctl.heap ref).lock = none then some { s with loop := .wait, handled := s.handled ++ [e] } else none
  | .stuck _ => none

/-- A step of request `k`, example.go 66-95. -/
def reqStep (s : USt) (k : Nat) : Option USt :=
  match s.req k with
  | .call a => some { s with req := updN s.req k (if s.ctl.disc.locks then .stuck a else .look a) }
  | .look a =>
    if s.ctl.disc.writes ∧ s.ctl.list ≠ [] then some { s with crashed := some .mapRace }
    else
      match a with
      | .all => some { s with req := updN s.req k (.enc a [] (s.ctl.list.map Prod.snd)) }
      | .one id =>
        match s.ctl.list.get id with
        | none => some { s with req := updN s.req k (.missing id) }
        | some ref => some { s with req := updN s.req k (.enc a [] [ref]) }
  | .enc a dn (ref :: todo) => some { s with req := updN s.req k (.enc a (dn ++ [ref]) todo) }
  | .enc a dn [] => some { s with req := updN s.req k (.shown a dn) }
  | _ => none

/-- The node whose maps request `k` is ranging over. -/
def ReqAt.reads : ReqAt → Option Nat
  | .enc _ _ (ref :: _) => some ref
  | _ => none

/-- One step of the program. -/
def uStep (db : DB) (s : USt) (l : ULabel) : Option USt :=
  if s.crashed.isSome ∨ s.ctl.crashed.isSome then none
  else
    match l with
    | .ctl l => if l = .take then none else (cStep db s.ctl l).map fun c => { s with ctl := c }
    | .loop => loopStep db s
    | .open a => some { s with nReq := s.nReq + 1, req := updN s.req s.nReq (.call a) }
    | .req k => reqStep s k
    | .raceDeliver k d =>
      match s.ctl.deliv d with
      | .process ref r =>
        if (s.req k).reads = some ref ∧ writesState (s.ctl.heap ref).node r = true ∧ (s.ctl.heap ref).lock = none then
          some { s with crashed := some .mapRace }
        else none
      | _ => none
    | .racePulse k ref j =>
      if (s.req k).reads = some ref ∧ (s.ctl.heap ref).proc j = .pulse ∧ (s.ctl.heap ref).lock = none then
        some { s with crashed := some .mapRace }
      else none

/-- The program when `Connect` has returned, example.go 31-41. -/
def USt.init (c : CSt) : USt :=
  { ctl := c, loop := .wait, handled := [], nReq := 0, req := fun _ => .absent, crashed := none }

end Verif.Model
