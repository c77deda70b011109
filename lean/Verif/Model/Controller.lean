import Verif.Model.NodeM

/-
controller.go, nodes/list.go, and the part of connection.go that delivers reports: what happens in a
running controller.

Nodes are pointers: numbers that index `heap`. The goroutine of `getNodes`, one goroutine per delivered
report, the goroutine of `saveDebouncer`, the identification goroutines of the nodes and the goroutines
`pushEvent` starts are interleaved arbitrarily.

`List.Get` and `List.All` have value receivers: they copy the list together with its mutex and then lock
the copy (list.go 40-62). The lock of the copy keeps nobody out, and a copy made while `Add` holds the
lock stays locked for ever. Both effects are modelled.

Not modelled: the read locks `Get` and `All` take on the nodes (they are released before the functions
return, and lock holders always go on); users of the library who add nodes or start identifications
themselves.

The comparison with the old file at the start of a save (135-140) ranges over the list and the states of
the nodes without any lock, until it finds a difference. It finds one in the end (the loaded controller has
no file name). Where it finds the first one is left open.
-/

namespace Verif.Model

open Verif.Go

/-- `List.Add` on the map, nodes/list.go 36: `l.nodes[int(node.Id)] = node` -/
def listPut (m : GoMap Int Nat) (id : Int) (ref : Nat) : GoMap Int Nat := m.set id ref

/-- The loop of `List.Add`, nodes/list.go 31-33: `node.Endpoints[k].node = node`. Endpoints are never nil
pointers here. -/
def Node.link (n : Node) : Node :=
  { n with endpoints := n.endpoints.map fun es => es.map fun e => { e with linked := true } }

/-- The ids `getNodes` goes through, controller.go 55-68: the active entries but the first; entry `i` is
the node with id `i + 1`. -/
def activeIds (bm : List Bool) : List Int :=
  (bm.zipIdx.filter fun p => p.1 && p.2 != 0).map fun p => ((p.2 + 1 : Nat) : Int)

/-- Where the goroutine of `getNodes` is, controller.go 40-89. -/
inductive DiscAt where
  /-- not started -/
  | absent
  /-- controller.go 47: `resp := <-t` -/
  | wait
  /-- 55: the loop; the ids that are still to come -/
  | loop (todo : List Int)
  /-- list.go 24: `l.Lock()` in `Add` -/
  | add (ref : Nat) (todo : List Int)
  /-- list.go 36: lock held, before the map is written -/
  | locked (ref : Nat) (todo : List Int)
  /-- list.go 36: while the map is being written -/
  | writing (ref : Nat) (todo : List Int)
  /-- list.go 37: `l.Unlock()` -/
  | unlock (ref : Nat) (todo : List Int)
  /-- controller.go 83: `c.pushEvent(events.NodeDiscoverd{…})` -/
  | announce (ref : Nat) (todo : List Int)
  /-- 87: `node.Setup(c.Connection, c.pushEvent)` -/
  | setup (ref : Nat) (todo : List Int)
  /-- 67: `go node.Identify()` -/
  | start (ref : Nat) (todo : List Int)
  | done
deriving DecidableEq, Repr, Inhabited

/-- Whether `getNodes` holds the lock of the node list. -/
def DiscAt.locks : DiscAt → Bool
  | .locked _ _ | .writing _ _ | .unlock _ _ => true
  | _ => false

/-- Whether `getNodes` is writing the map of the node list. -/
def DiscAt.writes : DiscAt → Bool
  | .writing _ _ => true
  | _ => false

/-- What the stick answers to the discovery request. -/
inductive DiscAnswer where
  /-- a closed channel or a nil message, 50 -/
  | nothing
  /-- `*serialapi.DiscoverdNodes`, 55 -/
  | nodes (bm : List Bool)
  /-- other data, 69 -/
  | other
deriving DecidableEq, Repr, Inhabited

/-- Where a goroutine is that delivers a report, connection.go 277 and controller.go 126-132. -/
inductive DelivAt where
  | absent
  /-- 127: `c.Nodes.Get` is about to copy the list -/
  | call (id : UInt8) (r : Report)
  /-- list.go 56: the copied lock was free; `l.nodes[id]` -/
  | look (id : UInt8) (r : Report)
  /-- controller.go 131: `n.ProcessEvent(report)` -/
  | process (ref : Nat) (r : Report)
  | done
  /-- list.go 53: `RLock` on a copy that was made while the lock was held -/
  | stuck
deriving DecidableEq, Repr, Inhabited

/-- Where the goroutine of `saveDebouncer` is, controller.go 105-117. -/
inductive SaverAt where
  | absent
  /-- 106 and 114: `<-c.triggerFileSave` -/
  | idle
  /-- 108: the `select`, entered at time `t0` -/
  | window (t0 : Nat)
  /-- 137: `reflect.DeepEqual(c, controller)` with the contents of the old file, before the map of the list -/
  | cmp
  /-- 137: comparing the nodes; the first is being read -/
  | cmpNodes (todo : List Nat)
  /-- 150 and list.go 73: marshalling copies the list -/
  | copy
  /-- list.go 73: the copied lock was free; ranging over the map -/
  | iter
  /-- controller.go 150: marshalling the nodes; the first is being read -/
  | enc (todo : List Nat)
  /-- 155: `out.WriteTo(configFile)` -/
  | write
  /-- list.go 41: `RLock` on a copy that was made while the lock was held -/
  | stuck
deriving DecidableEq, Repr, Inhabited

/-- Ghost history of the controller. -/
inductive CEv where
  /-- `pushEvent` was called; whether the event fitted into the queue -/
  | pushed (e : Event) (accepted : Bool)
  /-- the user received an event -/
  | taken (e : Event)
  /-- `saveDebouncer` received a trigger at time `t` -/
  | trigger (t : Nat)
  /-- `SaveConfigurationToFile` was called at time `t` -/
  | save (t : Nat)
  /-- `SaveConfigurationToFile` has written the file -/
  | saved
  /-- report `k` came from the connection -/
  | arrived (k : Nat) (id : UInt8) (r : Report)
  /-- report `k` was applied to the node -/
  | applied (k : Nat) (ref : Nat) (r : Report)
  /-- the discovery reply -/
  | reply (bm : List Bool)
deriving DecidableEq, Repr, Inhabited

/-- A running controller. -/
structure CSt where
  heap : Nat → NSt
  nHeap : Nat
  /-- `c.Nodes.nodes` -/
  list : GoMap Int Nat
  /-- `c.eventQue`, oldest first -/
  queue : List Event
  /-- goroutines started by `pushEvent` that want to send to `c.triggerFileSave` -/
  nTrig : Nat
  /-- whether `c.filename` is not empty -/
  hasFile : Bool
  disc : DiscAt
  nDeliv : Nat
  deliv : Nat → DelivAt
  saver : SaverAt
  /-- the clock, in milliseconds -/
  now : Nat
  crashed : Option Panic
  /-- ghost: newest first -/
  hist : List CEv

/-- What the saver does when it can choose. -/
inductive SaverOp where
  /-- receive from `c.triggerFileSave` -/
  | trigger
  /-- the timer of ten seconds has expired -/
  | timer
  /-- go on -/
  | go
  /-- there is no old file, or the comparison with it finds a difference -/
  | differ
deriving DecidableEq, Repr, Inhabited

/-- A step of the controller. -/
inductive CLabel where
  /-- gozwave.go 50: `go c.getNodes()` -/
  | startDisc
  | disc (a : DiscAnswer)
  /-- connection.go 277: a goroutine is started for a report -/
  | arrive (id : UInt8) (r : Report)
  | deliver (k : Nat)
  /-- a goroutine of node `ref` goes on -/
  | node (ref : Nat) (l : NLabel)
  /-- gozwave.go 51: `go c.saveDebouncer()` -/
  | startSaver
  | saver (op : SaverOp)
  /-- delivery `k` writes a state map while the saver is ranging over it -/
  | raceDeliver (k : Nat)
  /-- alarm pulse `j` of node `ref` writes a state map while the saver is ranging over it -/
  | racePulse (ref : Nat) (j : Nat)
  /-- the user receives from `GetNextEvent()` -/
  | take
  /-- time passes -/
  | tick (d : Nat)
deriving DecidableEq, Repr, Inhabited

/-- The capacity of `c.eventQue`, controller.go 34 -/
def queCap : Nat := 10

/-- `time.Second * 10`, controller.go 110 -/
def quiet : Nat := 10000

/-- `pushEvent`, controller.go 91-103: the event goes into the queue if there is room; a goroutine is
started that sends a trigger if it is an update. -/
def CSt.push (s : CSt) (e : Event) : CSt :=
  let ok := decide (s.queue.length < queCap)
  { s with queue := if ok then s.queue ++ [e] else s.queue
           nTrig := match e with | .updated _ => s.nTrig + 1 | .discovered _ => s.nTrig
           hist := .pushed e ok :: s.hist }

/-- How often a node has pushed. -/
def nodePushes (n : NSt) : Nat := n.hist.countP fun e => e = .pushed

/-- Put the new state of node `ref` in place. A push of the node reaches the controller if the node is
set up (otherwise it goes to the empty function of nodes/node.go 22). -/
def CSt.put (s : CSt) (ref : Nat) (n : NSt) : CSt :=
  let s1 := { s with heap := updN s.heap ref n, crashed := n.crashed }
  if nodePushes (s.heap ref) < nodePushes n ∧ n.node.hasConn = true then s1.push (.updated n.node.id) else s1

/-- A step of `getNodes`. -/
def discStep (db : DB) (s : CSt) (a : DiscAnswer) : Option CSt :=
  match s.disc with
  | .absent | .done => none
  | .wait =>
    match a with
    | .nodes bm => some { s with disc := .loop (activeIds bm), hist := .reply bm :: s.hist }
    | _ => some { s with disc := .done }
  | .loop [] => some { s with disc := .done }
  | .loop (id :: todo) =>
    match s.list.get id with
    | some ref => some { s with disc := .start ref todo }
    | none =>
      some { s with heap := updN s.heap s.nHeap (NSt.start (newNode id)), nHeap := s.nHeap + 1
                    disc := .add s.nHeap todo }
  | .add ref todo => some { s with disc := .locked ref todo }
  | .locked ref todo => some { s with disc := .writing ref todo }
  | .writing ref todo =>
    some { s with list := listPut s.list (s.heap ref).node.id ref, disc := .unlock ref todo }
  | .unlock ref todo => some { s with disc := .announce ref todo }
  | .announce ref todo =>
    some { (s.push (.discovered (s.heap ref).node.id)) with disc := .setup ref todo }
  | .setup ref todo =>
    (nodeStep db (s.heap ref) .setup).map fun n => { (s.put ref n) with disc := .start ref todo }
  | .start ref todo =>
    (nodeStep db (s.heap ref) .identify).map fun n => { (s.put ref n) with disc := .loop todo }

/-- A step of delivery `k`. -/
def deliverStep (db : DB) (s : CSt) (k : Nat) : Option CSt :=
  match s.deliv k with
  | .call id r =>
    some { s with deliv := updN s.deliv k (if s.disc.locks then .stuck else .look id r) }
  | .look id r =>
    if s.disc.writes ∧ s.list ≠ [] then some { s with crashed := some .mapRace }
    else
      match s.list.get (id.toNat : Int) with
      | none => some { s with deliv := updN s.deliv k .done }
      | some ref => some { s with deliv := updN s.deliv k (.process ref r) }
  | .process ref r =>
    (nodeStep db (s.heap ref) (.report r)).map fun n =>
      { ({ s with hist := .applied k ref r :: s.hist }.put ref n) with deliv := updN s.deliv k .done }
  | _ => none

/-- A step of `saveDebouncer`. -/
def saverStep (s : CSt) (op : SaverOp) : Option CSt :=
  match s.saver, op with
  | .idle, .trigger | .window _, .trigger =>
    if 0 < s.nTrig then
      some { s with nTrig := s.nTrig - 1, saver := .window s.now, hist := .trigger s.now :: s.hist }
    else none
  | .window t0, .timer =>
    if t0 + quiet ≤ s.now then
      if s.hasFile then some { s with saver := .cmp, hist := .save s.now :: s.hist }
      else some { s with saver := .idle }
    else none
  | .cmp, .go =>
    if s.disc.writes ∧ s.list ≠ [] then some { s with crashed := some .mapRace }
    else some { s with saver := .cmpNodes (s.list.map Prod.snd) }
  | .cmpNodes (_ :: todo), .go => some { s with saver := .cmpNodes todo }
  | .cmpNodes [], .go | .cmp, .differ | .cmpNodes _, .differ => some { s with saver := .copy }
  | .copy, .go => some { s with saver := if s.disc.locks then .stuck else .iter }
  | .iter, .go =>
    if s.disc.writes ∧ s.list ≠ [] then some { s with crashed := some .mapRace }
    else some { s with saver := .enc (s.list.map Prod.snd) }
  | .enc (_ :: todo), .go => some { s with saver := .enc todo }
  | .enc [], .go => some { s with saver := .write }
  | .write, .go => some { s with saver := .idle, hist := .saved :: s.hist }
  | _, _ => none

/-- The node whose maps the saver is ranging over. -/
def SaverAt.reads : SaverAt → Option Nat
  | .cmpNodes (ref :: _) | .enc (ref :: _) => some ref
  | _ => none

/-- Whether a Go map has entries. -/
def hasEntries {α β : Type} : Option (List (α × β)) → Bool
  | some (_ :: _) => true
  | _ => false

/-- Whether processing a report writes a state map of the node that has entries, node.go 84-140. Ranging over a map
without entries is not checked against a write (`runtime.mapiterinit` returns at once). -/
def writesState (n : Node) (r : Report) : Bool :=
  match r with
  | .alarm a => a.status == 0xFF && (hasEntries n.stateBool || (a.type != 0 && hasEntries n.stateFloat))
  | .switchBinaryV1 _ _ | .switchBinaryV2 _ _ _ => hasEntries n.stateBool
  | .switchMultilevelV1 _ _ | .switchMultilevelV4 _ _ _ _ _ => hasEntries n.stateBool || hasEntries n.stateFloat
  | .sensorMultiLevel _ => hasEntries n.stateFloat
  | _ => false

/-- One step of the controller. -/
def cStep (db : DB) (s : CSt) (l : CLabel) : Option CSt :=
  if s.crashed.isSome then none
  else
    match l with
    | .startDisc => if s.disc = .absent then some { s with disc := .wait } else none
    | .disc a => discStep db s a
    | .arrive id r =>
      some { s with nDeliv := s.nDeliv + 1, deliv := updN s.deliv s.nDeliv (.call id r)
                    hist := .arrived s.nDeliv id r :: s.hist }
    | .deliver k => deliverStep db s k
    | .node ref (.ident i a) =>
      if ref < s.nHeap then (nodeStep db (s.heap ref) (.ident i a)).map (s.put ref) else none
    | .node ref (.proc j) =>
      if ref < s.nHeap then (nodeStep db (s.heap ref) (.proc j)).map (s.put ref) else none
    | .node _ _ => none
    | .startSaver => if s.saver = .absent then some { s with saver := .idle } else none
    | .saver op => saverStep s op
    | .raceDeliver k =>
      match s.deliv k with
      | .process ref r =>
        if s.saver.reads = some ref ∧ writesState (s.heap ref).node r = true ∧ (s.heap ref).lock = none then
          some { s with crashed := some .mapRace }
        else none
      | _ => none
    | .racePulse ref j =>
      if s.saver.reads = some ref ∧ (s.heap ref).proc j = .pulse ∧ (s.heap ref).lock = none then
        some { s with crashed := some .mapRace }
      else none
    | .take =>
      match s.queue with
      | [] => none
      | e :: q => some { s with queue := q, hist := .taken e :: s.hist }
    | .tick d => some { s with now := s.now + d }

/-- A sequence of steps. -/
def cRun (db : DB) (s : CSt) : List CLabel → Option CSt
  | [] => some s
  | l :: ls => (cStep db s l).bind fun s => cRun db s ls

/-- `NewController`, controller.go 30-38, and gozwave.go 23. -/
def newController (hasFile : Bool) : CSt :=
  { heap := fun _ => NSt.start (newNode 0), nHeap := 0, list := [], queue := [], nTrig := 0
    hasFile := hasFile, disc := .absent, nDeliv := 0, deliv := fun _ => .absent, saver := .absent
    now := 0, crashed := none, hist := [] }

/-- One round of the loop in `LoadConfigurationFromFile`, controller.go 165-171: `Setup`, `Add`,
`pushEvent`. Nothing else runs while the file is loaded (gozwave.go 33-35), so `Add` is one step. -/
def CSt.loadNode (s : CSt) (n : Node) : CSt :=
  let n := { n.link with hasConn := true }
  { s with heap := updN s.heap s.nHeap (NSt.start n), nHeap := s.nHeap + 1
           list := listPut s.list n.id s.nHeap }.push (.discovered n.id)

/-- The loop of `LoadConfigurationFromFile` over the nodes in the file, in the order in which the map is
ranged over. -/
def CSt.loadNodes (s : CSt) (ns : List Node) : CSt := ns.foldl CSt.loadNode s

end Verif.Model
