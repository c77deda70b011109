import Verif.Model.Node
import Verif.Model.Serial

/-
nodes/node.go, nodes/protocol_info.go, nodes/manufacurer_specific.go, nodes/request_endpoints.go,
nodes/request_states.go: what happens to one node.

`ProcessEvent` (called in a goroutine of its own for every report, connection.go 277) and `Identify`
(called in a goroutine of its own, controller.go 67, and possibly by users of the library) are state
machines over the node. A region between `Lock`/`RLock` and the matching unlock is one step, enabled
only when no other goroutine holds the lock, except the wake-up branch of `ProcessEvent`, which is
split because `isAwake` accesses the same field without the lock. Unlocked accesses are steps of their
own. What the connection answers to a request is arbitrary.
-/

namespace Verif.Model

open Verif.Go

/-- events/*.go: the events the library emits. -/
inductive Event where
  /-- `events.NodeDiscoverd{Address: id}` -/
  | discovered (id : Int)
  /-- `events.NodeUpdated{Address: id}` -/
  | updated (id : Int)
deriving DecidableEq, Repr, Inhabited

/-- `strings.ToLower` on the characters that occur in sensor names and units (all are ASCII). -/
def lower (s : List Char) : List Char := s.map Char.toLower

/-- The key `"on"` etc. -/
def kOn : List Char := "on".toList
def kLevel : List Char := "level".toList
def kAlarm : List Char := "alarm".toList
def kAlarmLast : List Char := "alarmLastType".toList

/-- `strings.ToLower(data.TypeString + "_" + data.Unit)`, nodes/node.go 138 -/
def sensorKey (s : SensorMultiLevel) : List Char := lower (s.typeString ++ '_' :: s.unit)

/-- `m[k] = v` on a possibly nil map. -/
def mapPut {ν : Type} (m : Option (GoMap (List Char) ν)) (k : List Char) (v : ν) :
    Res (Option (GoMap (List Char) ν)) :=
  match m with
  | none => .error .nilMap
  | some m => .ok (some (m.set k v))

/-- `n.StateBool[k] = v` -/
def Node.setBool (n : Node) (k : List Char) (v : Bool) : Res Node :=
  (mapPut n.stateBool k v).bind fun m => .ok { n with stateBool := m }

/-- `n.StateFloat[k] = v` -/
def Node.setFloat (n : Node) (k : List Char) (v : Rat) : Res Node :=
  (mapPut n.stateFloat k v).bind fun m => .ok { n with stateFloat := m }

/-- First half of the alarm branch, nodes/node.go 89-97. -/
def Node.alarmOn (n : Node) (a : Alarm) : Res Node :=
  (n.setBool kAlarm true).bind fun n =>
  if a.type ≠ 0 then
    (n.setFloat kAlarm a.type.toNat).bind fun n => n.setFloat kAlarmLast a.type.toNat
  else .ok n

/-- Second half of the alarm branch, nodes/node.go 102-103. -/
def Node.alarmOff (n : Node) : Res Node :=
  (n.setBool kAlarm false).bind fun n => n.setFloat kAlarm 0

/-- The branches of `ProcessEvent` for states, nodes/node.go 114-143: the new node and whether an event
is pushed. Other reports (87, 108 and missing cases) are handled elsewhere or ignored. -/
def Node.applyState (n : Node) (r : Report) : Res (Node × Bool) :=
  match r with
  | .switchBinaryV1 c _ => (n.setBool kOn c).bind fun n => .ok (n, true)
  | .switchBinaryV2 c _ _ => (n.setBool kOn c).bind fun n => .ok (n, true)
  | .switchMultilevelV1 c _ =>
    (n.setBool kOn (decide (0 < c))).bind fun n => (n.setFloat kLevel c).bind fun n => .ok (n, true)
  | .switchMultilevelV4 c _ _ _ _ =>
    (n.setBool kOn (decide (0 < c))).bind fun n => (n.setFloat kLevel c).bind fun n => .ok (n, true)
  | .sensorMultiLevel s => (n.setFloat (sensorKey s) s.value).bind fun n => .ok (n, true)
  | _ => .ok (n, false)

/-- What `RequestEndpoints` builds from a report, nodes/request_endpoints.go 52-65. -/
def Node.makeEndpoints (n : Node) (k : Nat) : List Endpoint :=
  (List.range (k - 1)).map fun i =>
    { id := (i + 1 : Nat), classes := n.classes, stateBool := some [], stateFloat := some [], linked := true }

/-- database/devices.go 19-30 without the parameters, which are never read. -/
structure Device where
  brand : List Char
  product : List Char
  description : List Char
  classes : List CommandClass
  manufacturerID : List Char
  productType : List Char
  productID : List Char
deriving DecidableEq, Repr, Inhabited

/-- The two lookups of package database. -/
structure DB where
  /-- `GetMandatoryCommandClasses` -/
  mandatory : UInt8 → UInt8 → Option (List CommandClass)
  /-- `New` -/
  device : List Char → List Char → List Char → Option Device

/-- The locked region after a manufacturer report, nodes/node.go 195-209. -/
def Node.setManufacturer (db : DB) (n : Node) (m : ManufacturerSpecific) : Node :=
  let n := { n with manufacturer := some m }
  match db.device m.manufacturer m.type m.id with
  | none => n
  | some d =>
    { n with brand := d.brand, product := d.product, description := d.description
             classes := match n.classes, d.classes with
               | none, [] => none
               | cs, ds => some (cs.getD [] ++ ds) }

/-! ### The machine -/

/-- What `Identify` does once the node is awake. -/
inductive Purpose where
  /-- `RequestManufacturerSpecific`, node.go 188 -/
  | manufacturer
  /-- `RequestEndpoints`, node.go 250 -/
  | endpoints
  /-- `RequestStates`, node.go 269 -/
  | states
deriving DecidableEq, Repr, Inhabited

/-- Where an `Identify` goroutine is, nodes/node.go 153-302. -/
inductive IdentAt where
  | absent
  /-- node.go 158: `n.ProtocolInfo() == nil` -/
  | top
  /-- protocol_info.go 30: waiting for the reply -/
  | info
  /-- node.go 162, 191, 252: `<-time.After(time.Second * 10)` -/
  | sleep
  /-- 176-180 -/
  | classes
  /-- 186: `n.ManufacurerSpecific == nil` -/
  | manufacturer
  /-- 70: `n.IsAwake` -/
  | awTest (p : Purpose)
  /-- 76: `n.awake == nil` -/
  | awNil (p : Purpose)
  /-- 77: `n.awake = make(chan struct{})` -/
  | awMake (p : Purpose)
  /-- 80: `return n.awake` -/
  | awRet (p : Purpose)
  /-- `<-n.isAwake()`: receiving from a channel, or from nil -/
  | awWait (p : Purpose) (c : Option Nat)
  /-- the node is awake, the request follows -/
  | send (p : Purpose)
  /-- waiting for the reply: manufacurer_specific.go 31, request_endpoints.go 43 -/
  | reply (p : Purpose)
  /-- node.go 247: `n.Endpoints == nil` -/
  | endpoints
  /-- 256-261 -/
  | endpointsEvent
  /-- 266: `!n.statesOk` -/
  | states
  /-- request_states.go 15: the loop over the classes -/
  | query (todo : List CommandClass)
  /-- request_states.go 45: waiting for a report -/
  | sensor (todo : List CommandClass)
  /-- node.go 291-295 -/
  | finish
  /-- 297-300 -/
  | mark
  | done
deriving DecidableEq, Repr, Inhabited

/-- Where a `ProcessEvent` goroutine is that has not finished at once. -/
inductive ProcAt where
  | absent
  /-- node.go 100: the second of an alarm -/
  | pulse
  /-- 111: `close(n.awake)` -/
  | wakeClose
  /-- 112: `n.awake = nil` -/
  | wakeNil
  | done
deriving DecidableEq, Repr, Inhabited

/-- What the connection answers. -/
inductive Answer where
  /-- the channel is closed without a message, or the message is nil -/
  | nothing
  /-- a message whose `Data` is `*FuncGetNodeProtocolInfo` -/
  | info (p : ProtocolInfo)
  /-- a report -/
  | report (r : Report)
  /-- a message with other data -/
  | other
deriving DecidableEq, Repr, Inhabited

/-- Ghost history of one node. -/
inductive NEv where
  /-- identification `i` handed `data` to the connection, as the request for `p` (`none`: protocol
  info, which is answered by the stick) -/
  | sent (i : Nat) (p : Option Purpose) (data : List UInt8)
  /-- the node pushed an event -/
  | pushed
  /-- identification `i` called `isAwake` -/
  | waits (i : Nat)
  /-- identification `i` got past `<-n.isAwake()` -/
  | passes (i : Nat)
deriving DecidableEq, Repr, Inhabited

/-- One node with its goroutines. -/
structure NSt where
  node : Node
  /-- `n.awake`: nil, or the number of a channel -/
  awake : Option Nat
  /-- channels made so far -/
  nChan : Nat
  /-- closed channels -/
  closed : Nat → Bool
  /-- the processing goroutine that holds the lock -/
  lock : Option Nat
  nIdent : Nat
  ident : Nat → IdentAt
  nProc : Nat
  proc : Nat → ProcAt
  crashed : Option Panic
  /-- ghost: newest first -/
  hist : List NEv
  /-- ghost: number of wake-up reports received that found a channel -/
  nWake : Nat
  /-- ghost: value of `nWake` when identification `i` last called `isAwake` -/
  waitAt : Nat → Nat

/-- A node as `New` makes it or as it was loaded, before any goroutine touches it. -/
def NSt.start (n : Node) : NSt :=
  { node := n, awake := none, nChan := 0, closed := fun _ => false, lock := none
    nIdent := 0, ident := fun _ => .absent, nProc := 0, proc := fun _ => .absent
    crashed := none, hist := [], nWake := 0, waitAt := fun _ => 0 }

/-- Function update. -/
def updN {α : Type} (f : Nat → α) (i : Nat) (v : α) : Nat → α := fun j => if j = i then v else f j

/-- A step of one node. -/
inductive NLabel where
  /-- a goroutine calls `Identify` -/
  | identify
  /-- identification `i` goes on; `a` is the answer where one is awaited -/
  | ident (i : Nat) (a : Answer)
  /-- a goroutine calls `ProcessEvent` with a report and gets the lock -/
  | report (r : Report)
  /-- processing goroutine `j` goes on -/
  | proc (j : Nat)
  /-- `Setup`, nodes/node.go 64-67 -/
  | setup
deriving DecidableEq, Repr, Inhabited

/-- `n.pushEvent`, nodes/node.go 304-306. Before `Setup` the function pushed to does nothing, which the
controller model takes into account. -/
def NSt.push (s : NSt) : NSt := { s with hist := .pushed :: s.hist }

/-- Continue identification `i` at `a`. -/
def NSt.goto (s : NSt) (i : Nat) (a : IdentAt) : NSt := { s with ident := updN s.ident i a }

/-- A call of a method of `n.connection`, which is nil before `Setup`. -/
def NSt.write (s : NSt) (i : Nat) (p : Option Purpose) (data : List UInt8) (k : NSt → NSt) : NSt :=
  if s.node.hasConn then k { s with hist := .sent i p data :: s.hist }
  else { s with crashed := some .nilDeref }

/-- Identification `i` calls `isAwake` in order to do `p`. -/
def NSt.await (s : NSt) (i : Nat) (p : Purpose) : NSt :=
  { s with ident := updN s.ident i (.awTest p), waitAt := updN s.waitAt i s.nWake
           hist := .waits i :: s.hist }

/-- `ProcessEvent`, nodes/node.go 83-145, from getting the lock on. -/
def reportStep (s : NSt) (r : Report) : NSt :=
  match r with
  | .alarm a =>
    if a.status = 0xFF then
      match s.node.alarmOn a with
      | .error p => { s with crashed := some p }
      | .ok n => { s.push with node := n, nProc := s.nProc + 1, proc := updN s.proc s.nProc .pulse }
    else s
  | .wakeUp =>
    match s.awake with
    | none => s
    | some _ => { s with lock := some s.nProc, nProc := s.nProc + 1
                         proc := updN s.proc s.nProc .wakeClose, nWake := s.nWake + 1 }
  | r =>
    match s.node.applyState r with
    | .error p => { s with crashed := some p }
    | .ok (n, true) => { s.push with node := n }
    | .ok (_, false) => s

/-- The rest of `ProcessEvent`. -/
def procStep (s : NSt) (j : Nat) : Option NSt :=
  match s.proc j with
  | .pulse =>
    if s.lock = none then
      match s.node.alarmOff with
      | .error p => some { s with crashed := some p }
      | .ok n => some { s.push with node := n, proc := updN s.proc j .done }
    else none
  | .wakeClose =>
    match s.awake with
    | none => some { s with crashed := some .close }
    | some c =>
      if s.closed c then some { s with crashed := some .close }
      else some { s with closed := updN s.closed c true, proc := updN s.proc j .wakeNil }
  | .wakeNil =>
    some { s with awake := none, lock := none, proc := updN s.proc j .done }
  | _ => none

/-- `Identify`, nodes/node.go 153-302, and the functions it calls. -/
def identStep (db : DB) (s : NSt) (i : Nat) (a : Answer) : Option NSt :=
  match s.ident i with
  | .absent | .done => none
  | .top =>
    if s.lock = none then
      match s.node.protocolInfo with
      | some _ => some (s.goto i .classes)
      | none => some (s.write i none (serialRawEncode [0x41, intToByte s.node.id]) fun s => s.goto i .info)
    else none
  | .info =>
    match a with
    | .info p =>
      if s.lock = none then
        some { (s.push.goto i .classes) with
          node := { s.node with protocolInfo := some p, isAwake := p.listening } }
      else none
    | _ => some (s.goto i .sleep)
  | .sleep => some (s.goto i .top)
  | .classes =>
    if s.lock = none then
      match s.node.protocolInfo with
      | none => some { s with crashed := some .nilDeref }
      | some p =>
        some { (s.goto i .manufacturer) with
          node := { s.node with classes := db.mandatory p.generic p.specific } }
    else none
  | .manufacturer =>
    match s.node.manufacturer with
    | none => some (s.await i .manufacturer)
    | some _ => some (s.goto i .endpoints)
  | .awTest p =>
    if s.node.isAwake then some { (s.goto i (.send p)) with hist := .passes i :: s.hist }
    else some (s.goto i (.awNil p))
  | .awNil p =>
    match s.awake with
    | none => some (s.goto i (.awMake p))
    | some _ => some (s.goto i (.awRet p))
  | .awMake p =>
    some { (s.goto i (.awRet p)) with awake := some s.nChan, nChan := s.nChan + 1 }
  | .awRet p => some (s.goto i (.awWait p s.awake))
  | .awWait p c =>
    match c with
    | none => none
    | some c =>
      if s.closed c then some { (s.goto i (.send p)) with hist := .passes i :: s.hist } else none
  | .send .manufacturer =>
    some (s.write i (some .manufacturer) (rawEncode s.node.id [0x72, 0x04, 0x00]) fun s => s.goto i (.reply .manufacturer))
  | .send .endpoints =>
    if s.lock = none then
      match s.node.classes with
      | none => some { (s.goto i .sleep) with node := { s.node with endpoints := some [] } }
      | some _ =>
        some (s.write i (some .endpoints) (rawEncode s.node.id [0x60, 0x07, 0x25]) fun s => s.goto i (.reply .endpoints))
    else none
  | .send .states =>
    if s.lock = none then some (s.goto i (.query (s.node.classes.getD []))) else none
  | .reply .manufacturer =>
    match a with
    | .report (.manufacturerSpecific m) =>
      if s.lock = none then
        some { (s.push.goto i .endpoints) with node := s.node.setManufacturer db m }
      else none
    | _ => some (s.goto i .sleep)
  | .reply .endpoints =>
    match a with
    | .report (.multiChannelEndpoints m) =>
      if s.lock = none then
        some { (s.goto i .endpointsEvent) with
          node := { s.node with endpoints := some (s.node.makeEndpoints m.endpoints) } }
      else none
    | _ => some (s.goto i .sleep)
  | .reply .states => none
  | .endpoints =>
    if s.lock = none then
      match s.node.endpoints with
      | none => some (s.await i .endpoints)
      | some _ => some (s.goto i .states)
    else none
  | .endpointsEvent => if s.lock = none then some (s.push.goto i .top) else none
  | .states =>
    if s.lock = none then
      if s.node.statesOk then some (s.goto i .finish)
      else some (s.await i .states)
    else none
  | .query [] =>
    if s.lock = none then
      some { (s.goto i .top) with node := { s.node with statesOk := true } }
    else none
  | .query (v :: todo) =>
    if v.id = ccSwitchBinary then
      some (s.write i (some .states) (rawEncode s.node.id [0x25, 0x02, 0x25]) fun s => s.goto i (.query todo))
    else if v.id = ccSwitchMultilevel then
      some (s.write i (some .states) (rawEncode s.node.id [0x26, 0x02, 0x25]) fun s => s.goto i (.query todo))
    else if v.id = ccSensorMultiLevel then
      some (s.write i (some .states) (rawEncode s.node.id [0x31, 0x01, 0x25]) fun s => s.goto i (.sensor todo))
    else some (s.goto i (.query todo))
  | .sensor todo => some (s.goto i (.query todo))
  | .finish => if s.lock = none then some (s.push.goto i .mark) else none
  | .mark =>
    if s.lock = none then
      some { (s.goto i .done) with node := { s.node with identified := true } }
    else none

/-- One step of a node. -/
def nodeStep (db : DB) (s : NSt) (l : NLabel) : Option NSt :=
  if s.crashed.isSome then none
  else
    match l with
    | .identify => some { s with nIdent := s.nIdent + 1, ident := updN s.ident s.nIdent .top }
    | .ident i a => identStep db s i a
    | .report r => if s.lock = none then some (reportStep s r) else none
    | .proc j => procStep s j
    | .setup => some { s with node := { s.node with hasConn := true } }

/-- A sequence of steps. -/
def nodeRun (db : DB) (s : NSt) : List NLabel → Option NSt
  | [] => some s
  | l :: ls => (nodeStep db s l).bind fun s => nodeRun db s ls

end Verif.Model
