import Verif.Model.Commands

/-
nodes/node.go, nodes/commands.go, nodes/endpoints.go: the node structure, reports, commands.
Mutexes are left out here: every function below runs under the node's lock (or is a single
unlocked access, noted where it matters).
-/

namespace Verif.Model

open Verif.Go

/-- database/types.go 5-12 -/
structure CommandClass where
  id : UInt8
  inNIF : Bool
  secure : Bool
  nonSecure : Bool
  version : List Char
deriving DecidableEq, Repr, Inhabited

/-- A Go map as an association list; the first entry of a key counts. -/
abbrev GoMap (κ ν : Type) := List (κ × ν)

namespace GoMap

variable {κ ν : Type} [DecidableEq κ]

/-- `m[k]` with presence. -/
def get (m : GoMap κ ν) (k : κ) : Option ν :=
  match m with
  | [] => none
  | (k', v) :: r => if k' = k then some v else get r k

/-- `m[k] = v` -/
def set (m : GoMap κ ν) (k : κ) (v : ν) : GoMap κ ν :=
  match m with
  | [] => [(k, v)]
  | (k', v') :: r => if k' = k then (k, v) :: r else (k', v') :: set r k v

/-- `delete(m, k)` -/
def erase (m : GoMap κ ν) (k : κ) : GoMap κ ν := m.filter fun e => ¬ e.1 = k

/-- The keys. -/
def keys (m : GoMap κ ν) : List κ := m.map Prod.fst

end GoMap

/-- nodes/endpoints.go 10-18.  `linked` says that the unexported back pointer `node` refers to the
node that holds the endpoint (it is nil otherwise; no other value is ever stored). -/
structure Endpoint where
  id : Int
  classes : Option (List CommandClass)
  stateBool : Option (GoMap (List Char) Bool)
  stateFloat : Option (GoMap (List Char) Rat)
  linked : Bool
deriving DecidableEq, Repr, Inhabited

/-- nodes/node.go 30-59.  `none` for slices, maps and pointers is nil.  `awake` is the channel a sleeping
node's identification waits on: its generation number if it exists.  `connection` and
`pushEventFunc` are set by `Setup` (64-67): `hasConn`. -/
structure Node where
  id : Int
  isAwake : Bool := false
  protocolInfo : Option ProtocolInfo := none
  manufacturer : Option ManufacturerSpecific := none
  brand : List Char := []
  product : List Char := []
  description : List Char := []
  classes : Option (List CommandClass) := none
  endpoints : Option (List Endpoint) := none
  stateBool : Option (GoMap (List Char) Bool) := some []
  stateFloat : Option (GoMap (List Char) Rat) := some []
  statesOk : Bool := false
  identified : Bool := false
  hasConn : Bool := false
deriving DecidableEq, Repr, Inhabited

/-- `nodes.New`, nodes/node.go 17-28 -/
def newNode (id : Int) : Node := { id := id }

/-- `HasCommand`, nodes/node.go 308-320 -/
def Node.hasCommand (n : Node) (c : UInt8) : Bool :=
  match n.classes with
  | none => false
  | some cs => cs.any fun v => v.id == c

/-! ### commands -/

/-- `Node.On`, nodes/commands.go 8-29: the payloads handed to `connection.Write`. -/
def Node.on (undef : Float64 → UInt8) (n : Node) : List (List UInt8) :=
  if n.hasCommand ccSwitchBinary then [switchBinaryEncode n.id true]
  else if n.hasCommand ccSwitchMultilevel then [switchMultilevelEncode undef n.id (.fin 100)]
  else []

/-- `Node.Off`, nodes/commands.go 31-52 -/
def Node.off (undef : Float64 → UInt8) (n : Node) : List (List UInt8) :=
  if n.hasCommand ccSwitchBinary then [switchBinaryEncode n.id false]
  else if n.hasCommand ccSwitchMultilevel then [switchMultilevelEncode undef n.id (.fin 0)]
  else []

/-- `Node.Level`, nodes/commands.go 54-69 -/
def Node.level (undef : Float64 → UInt8) (n : Node) (v : Float64) : List (List UInt8) :=
  if n.hasCommand ccSwitchMultilevel then [switchMultilevelEncode undef n.id v]
  else []

/-- `Node.Endpoint(id)`, nodes/endpoints.go 20-31, for a non-nil node: `none` is nil, indexing may
panic. -/
def Node.endpoint (n : Node) (id : Int) : Res (Option Endpoint) :=
  let es := n.endpoints.getD []
  if id > es.length then .ok none
  else if id < 0 then .error .index
  else
    match es[id.toNat]? with
    | some e => .ok (some e)
    | none => .error .index

/-- `Endpoint.Write`, nodes/endpoints.go 33-36: the payload handed to the connection's `Write`. -/
def Endpoint.write (e : Endpoint) (msg : List UInt8) : Res (List (List UInt8)) := do
  let m ← encapEncode msg e.id
  return [m]

/-- The guard common to the endpoint commands: `e.node` is dereferenced by `HasCommand`. -/
def Endpoint.owner (e : Endpoint) (n : Node) : Res Node :=
  if e.linked then .ok n else .error .nilDeref

/-- `Endpoint.On`, nodes/endpoints.go 38-59, of an endpoint held by node `n` -/
def Endpoint.on (undef : Float64 → UInt8) (n : Node) (e : Endpoint) : Res (List (List UInt8)) := do
  let n ← e.owner n
  if n.hasCommand ccSwitchBinary then e.write (switchBinaryEncode n.id true)
  else if n.hasCommand ccSwitchMultilevel then
    e.write (switchMultilevelEncode undef n.id (.fin 100))
  else return []

/-- `Endpoint.Off`, nodes/endpoints.go 61-82 -/
def Endpoint.off (undef : Float64 → UInt8) (n : Node) (e : Endpoint) : Res (List (List UInt8)) := do
  let n ← e.owner n
  if n.hasCommand ccSwitchBinary then e.write (switchBinaryEncode n.id false)
  else if n.hasCommand ccSwitchMultilevel then
    e.write (switchMultilevelEncode undef n.id (.fin 0))
  else return []

/-- `Endpoint.Level`, nodes/endpoints.go 84-99 -/
def Endpoint.level (undef : Float64 → UInt8) (n : Node) (e : Endpoint) (v : Float64) :
    Res (List (List UInt8)) := do
  let n ← e.owner n
  if n.hasCommand ccSwitchMultilevel then e.write (switchMultilevelEncode undef n.id v)
  else return []

end Verif.Model
