import Verif.Model.Controller

/-
Data races on nodes. The goroutines that use a node in a running controller: `getNodes`, one per delivered report, the
identification of a node, the rest of a `ProcessEvent` (alarm, wake-up), `saveDebouncer`, and users that call `On`, `Off`
or `Level`. The variables are the fields of `Node` (nodes/node.go 30-59); the map of the list, which `Get`
and `All` read under the lock of a copy (nodes/list.go 40-63), is the matter of C72.

Which step accesses which field, and whether under the lock of the node, is a table here. `C120_writes_sound`,
`C120_reads_sound` and `C120_guard_sound` check the table against the steps. Two accesses race if the next steps of two
goroutines make them, one is a write, and not both are made under the lock.

Left out: `Id`, which nothing writes after `New`; the endpoints' own maps, which nothing writes; the lock `Add` takes on a node
that nobody else has yet (list.go 30).
-/

namespace Verif.Spec.NodeRace

open Verif.Model

/-- The fields of a node. -/
inductive Field where
  /-- `IsAwake`, node.go 32 -/
  | isAwake
  /-- `protocolInfo`, 34 -/
  | info
  /-- `ManufacurerSpecific`, 35 -/
  | manufacturer
  /-- `Brand`, `Product`, `Description`, 38-40 -/
  | names
  /-- `CommandClasses`, 42 -/
  | classes
  /-- `Endpoints`, 46 -/
  | endpoints
  /-- `StateBool` and `StateFloat`, 48-49 -/
  | states
  /-- `statesOk`, 50 -/
  | statesOk
  /-- `connection` and `pushEventFunc`, 52-53 -/
  | conn
  /-- `awake`, 55 -/
  | awake
  /-- `identified`, 56 -/
  | identified
deriving DecidableEq, Repr

/-- What a goroutine is about to do with a node. -/
inductive Task where
  /-- identification `i` goes on -/
  | ident (i : Nat)
  /-- the rest of the processing `j` of a report -/
  | proc (j : Nat)
  /-- `ProcessEvent` with a report -/
  | report (r : Report)
  /-- `Setup` -/
  | setup
deriving DecidableEq, Repr

/-- Whether a step of a node carries out the task. -/
def Does : Task → NLabel → Prop
  | .ident i, l => ∃ a, l = .ident i a
  | .proc j, l => l = .proc j
  | .report r, l => l = .report r
  | .setup, l => l = .setup

/-- The report changes the state maps, node.go 87-143. -/
def changesState : Report → Bool
  | .alarm a => a.status == 0xFF
  | .switchBinaryV1 _ _ | .switchBinaryV2 _ _ _ | .switchMultilevelV1 _ _ | .switchMultilevelV4 _ _ _ _ _ => true
  | .sensorMultiLevel _ => true
  | _ => false

/-- The task writes the field. -/
def nWrites (x : NSt) : Task → Field → Bool
  | .ident i, f =>
    match x.ident i, f with
    | .info, .info | .info, .isAwake => true                       /- 166-167 -/
    | .classes, .classes => true                                   /- 179 -/
    | .awMake _, .awake => true                                    /- 77 -/
    | .send .endpoints, .endpoints => x.node.classes.isNone        /- request_endpoints.go 18 -/
    | .reply .manufacturer, .manufacturer | .reply .manufacturer, .names => true   /- 196-201 -/
    | .reply .manufacturer, .classes => true                       /- 203 -/
    | .reply .endpoints, .endpoints => true                        /- request_endpoints.go 54-55 -/
    | .query [], .statesOk => true                                 /- request_states.go 56 -/
    | .mark, .identified => true                                   /- 298 -/
    | _, _ => false
  | .proc j, f =>
    match x.proc j, f with
    | .pulse, .states => true                                      /- 102-103 -/
    | .wakeNil, .awake => true                                     /- 112 -/
    | _, _ => false
  | .report r, f => f = .states && changesState r
  | .setup, f => f = .conn                                         /- 65-66 -/

/-- The task reads the field. -/
def nReads (x : NSt) : Task → Field → Bool
  | .ident i, f =>
    match x.ident i, f with
    | .top, .info => true                                          /- 158 -/
    | .top, .conn => x.node.protocolInfo.isNone                    /- protocol_info.go 25 -/
    | .info, .conn => true                                         /- 168, the event -/
    | .classes, .info => true                                      /- 176 -/
    | .manufacturer, .manufacturer => true                         /- 186 -/
    | .awTest _, .isAwake => true                                  /- 70 -/
    | .awNil _, .awake | .awRet _, .awake => true                  /- 76, 80 -/
    | .send .manufacturer, .conn => true                           /- manufacurer_specific.go 26 -/
    | .send .endpoints, .classes => true                           /- request_endpoints.go 15 -/
    | .send .endpoints, .conn => x.node.classes.isSome             /- request_endpoints.go 42 -/
    | .send .states, .classes => true                              /- request_states.go 12 -/
    | .reply .manufacturer, .classes | .reply .manufacturer, .conn => true   /- 203, 206 -/
    | .reply .endpoints, .classes => true                          /- request_endpoints.go 58 -/
    | .endpoints, .endpoints => true                               /- 247 -/
    | .endpointsEvent, .conn => true                               /- 257 -/
    | .states, .statesOk => true                                   /- 266 -/
    | .query (_ :: _), .conn => true                               /- request_states.go 25, 34, 43 -/
    | .finish, .conn => true                                       /- 292 -/
    | _, _ => false
  | .proc j, f =>
    match x.proc j, f with
    | .pulse, .states | .pulse, .conn => true                      /- 102-106 -/
    | .wakeClose, .awake => true                                   /- 111 -/
    | _, _ => false
  | .report r, f =>
    match f with
    | .states | .conn => changesState r
    | .awake => r = .wakeUp                                        /- 110 -/
    | _ => false
  | .setup, _ => false

/-- The access is made under the lock of the node. -/
def nGuarded (x : NSt) : Task → Field → Bool
  | .ident i, f =>
    match x.ident i, f with
    | .top, .conn => false
    | .manufacturer, _ => false
    | .awTest _, _ | .awNil _, _ | .awMake _, _ | .awRet _, _ => false
    | .send _, .conn => false
    | .query (_ :: _), _ => false
    | _, _ => true
  | .proc _, _ | .report _, _ => true
  | .setup, _ => false

/-- The goroutines. -/
inductive Actor where
  /-- `getNodes` -/
  | disc
  /-- delivery `k` of a report -/
  | deliv (k : Nat)
  | ident (ref i : Nat)
  | proc (ref j : Nat)
  /-- `saveDebouncer` -/
  | saver
  /-- a user that calls `On`, `Off` or `Level` on a node, nodes/commands.go 8-69 -/
  | user (ref : Nat)
deriving DecidableEq, Repr

/-- Whose step it is. -/
def actorOf : CLabel → Option Actor
  | .disc _ => some .disc
  | .deliver k => some (.deliv k)
  | .node ref (.ident i _) => some (.ident ref i)
  | .node ref (.proc j) => some (.proc ref j)
  | .saver _ => some .saver
  | .raceDeliver k => some (.deliv k)
  | .racePulse ref j => some (.proc ref j)
  | _ => none

/-- What a goroutine is about to do, and with which node. -/
def task (s : CSt) : Actor → Option (Nat × Task)
  | .disc =>
    match s.disc with
    | .setup ref _ => some (ref, .setup)
    | _ => none
  | .deliv k =>
    match s.deliv k with
    | .process ref r => some (ref, .report r)
    | _ => none
  | .ident ref i => some (ref, .ident i)
  | .proc ref j => some (ref, .proc j)
  | .saver | .user _ => none

/-- The saver reads the field: comparing goes through all fields, encoding through the exported ones. -/
def saverReads (s : CSt) (ref : Nat) (f : Field) : Bool :=
  match s.saver with
  | .cmpNodes (r :: _) => r = ref
  | .enc (r :: _) => r = ref && (f = .isAwake || f = .manufacturer || f = .names || f = .classes || f = .endpoints || f = .states)
  | _ => false

/-- The next step of the goroutine writes the field of the node. -/
def writes (s : CSt) (a : Actor) (ref : Nat) (f : Field) : Bool :=
  match task s a with
  | some (r, t) => r = ref && nWrites (s.heap ref) t f
  | none => false

/-- The next step of the goroutine reads the field of the node. -/
def reads (s : CSt) (a : Actor) (ref : Nat) (f : Field) : Bool :=
  match a with
  | .saver => saverReads s ref f
  | .user r => r = ref && (f = .classes || f = .conn)              /- HasCommand, node.go 309-314; commands.go 17 -/
  | a =>
    match task s a with
    | some (r, t) => r = ref && nReads (s.heap ref) t f
    | none => false

/-- It does so under the lock of the node. -/
def guarded (s : CSt) (a : Actor) (ref : Nat) (f : Field) : Bool :=
  match task s a with
  | some (_, t) => nGuarded (s.heap ref) t f
  | none => false

/-- Two goroutines race on a field of a node: `a` is about to write what `b` is about to read or write, and not both
under the lock. -/
def Race (s : CSt) (a b : Actor) (ref : Nat) (f : Field) : Prop :=
  a ≠ b ∧ writes s a ref f = true ∧ (reads s b ref f = true ∨ writes s b ref f = true) ∧
    ¬ (guarded s a ref f = true ∧ guarded s b ref f = true)

/-- `x` with the field taken from `y`. -/
def setField (f : Field) (y x : NSt) : NSt :=
  match f with
  | .isAwake => { x with node := { x.node with isAwake := y.node.isAwake } }
  | .info => { x with node := { x.node with protocolInfo := y.node.protocolInfo } }
  | .manufacturer => { x with node := { x.node with manufacturer := y.node.manufacturer } }
  | .names => { x with node := { x.node with brand := y.node.brand, product := y.node.product, description := y.node.description } }
  | .classes => { x with node := { x.node with classes := y.node.classes } }
  | .endpoints => { x with node := { x.node with endpoints := y.node.endpoints } }
  | .states => { x with node := { x.node with stateBool := y.node.stateBool, stateFloat := y.node.stateFloat } }
  | .statesOk => { x with node := { x.node with statesOk := y.node.statesOk } }
  | .conn => { x with node := { x.node with hasConn := y.node.hasConn } }
  | .awake => { x with awake := y.awake }
  | .identified => { x with node := { x.node with identified := y.node.identified } }

/-- A field holds the same in both states of a node. -/
def Same (x x' : NSt) (f : Field) : Prop := setField f x x' = x'

/-- The state with a field of node `ref` taken from `y`. -/
def CSt.setField (s : CSt) (ref : Nat) (f : Field) (y : NSt) : CSt :=
  { s with heap := updN s.heap ref (NodeRace.setField f y (s.heap ref)) }

/-- The accesses to a node that the lock of the node does not order: `a` writes, `b` reads or writes. -/
inductive Unordered (s : CSt) (ref : Nat) : Actor → Actor → Field → Prop where
  /-- the file is being written (controller.go 137, 150) -/
  | saving {a : Actor} {f : Field} (h : s.saver.reads = some ref) : Unordered s ref a .saver f
  /-- `On`, `Off` and `Level` ask for the classes (node.go 309-314) while the identification finds them out -/
  | asking {i : Nat} (h : (s.heap ref).ident i = .classes ∨ (s.heap ref).ident i = .reply .manufacturer) :
      Unordered s ref (.ident ref i) (.user ref) .classes
  /-- a node that is in the list already is set up (controller.go 80-87) while a user sends a command -/
  | earlyUser {todo : List Int} (h : s.disc = .setup ref todo) : Unordered s ref .disc (.user ref) .conn
  /-- or while a report is processed -/
  | earlyReport {todo : List Int} {k : Nat} {r : Report} (h : s.disc = .setup ref todo) (hk : s.deliv k = .process ref r)
      (hc : changesState r = true) : Unordered s ref .disc (.deliv k) .conn
  /-- or while an alarm is being cleared -/
  | earlyPulse {todo : List Int} {j : Nat} (h : s.disc = .setup ref todo) (hj : (s.heap ref).proc j = .pulse) :
      Unordered s ref .disc (.proc ref j) .conn
  /-- `isAwake` makes the channel (node.go 77) while a wake-up report looks for it -/
  | sleepReport {i k : Nat} {p : Purpose} (h : (s.heap ref).ident i = .awMake p) (hk : s.deliv k = .process ref .wakeUp) :
      Unordered s ref (.ident ref i) (.deliv k) .awake
  | sleepWake {i j : Nat} {p : Purpose} (h : (s.heap ref).ident i = .awMake p)
      (hj : (s.heap ref).proc j = .wakeClose ∨ (s.heap ref).proc j = .wakeNil) :
      Unordered s ref (.ident ref i) (.proc ref j) .awake
  /-- a wake-up forgets the channel (node.go 112) while `isAwake` looks for it -/
  | wakeSleep {i j : Nat} {p : Purpose} (hj : (s.heap ref).proc j = .wakeNil)
      (h : (s.heap ref).ident i = .awNil p ∨ (s.heap ref).ident i = .awMake p ∨ (s.heap ref).ident i = .awRet p) :
      Unordered s ref (.proc ref j) (.ident ref i) .awake

end Verif.Spec.NodeRace
