import Verif.Model.Reports

/-
serialapi/message.go, application_command_handler.go, discovery_nodes.go,
get_node_protocolinfo.go.
-/

namespace Verif.Model

open Verif.Go

/-- serialapi/types.go: `DiscoveryNodes` -/
def fnDiscoveryNodes : UInt8 := 0x02
/-- serialapi/types.go: `ApplicationCommandHandler` -/
def fnApplicationCommandHandler : UInt8 := 0x04
/-- serialapi/types.go: `SendData` -/
def fnSendData : UInt8 := 0x13
/-- serialapi/types.go: `GetNodeProtocolInfo` -/
def fnGetNodeProtocolInfo : UInt8 := 0x41

/-- serialapi/application_command_handler.go 8-14 -/
structure ACH where
  command : UInt8
  class_ : UInt8
  node : UInt8
  report : Report
deriving DecidableEq, Repr, Inhabited

/-- serialapi/get_node_protocolinfo.go 5-19 -/
structure ProtocolInfo where
  listening : Bool
  routing : Bool
  beaming : Bool
  version : UInt8
  flirs : Bool
  security : Bool
  maxBaud : Nat
  basic : UInt8
  generic : UInt8
  specific : UInt8
deriving DecidableEq, Repr, Inhabited

/-- The dynamic type of `Message.Data`, serialapi/message.go 17 -/
inductive MsgData where
  | nil
  | ach (f : ACH)
  | nodes (active : List Bool)
  | info (p : ProtocolInfo)
deriving DecidableEq, Repr, Inhabited

/-- serialapi/message.go 10-18 -/
structure Message where
  length : UInt8
  messageType : UInt8
  function : UInt8
  nodeID : UInt8
  startByte : UInt8
  data : MsgData
deriving DecidableEq, Repr, Inhabited

/-- `IsACK`, message.go 21-23 -/
def Message.isACK (m : Message) : Bool := m.startByte == 0x06
/-- `IsNAK`, message.go 26-28 -/
def Message.isNAK (m : Message) : Bool := m.startByte == 0x15
/-- `IsCAN`, message.go 31-33 -/
def Message.isCAN (m : Message) : Bool := m.startByte == 0x18

/-- `GenerateChecksum`, message.go 73-83: starts from `data[0]` (panics on empty data), XORs the
bytes at indices `1 … len-2`, complements. -/
def generateChecksum (d : List UInt8) : Res UInt8 :=
  match d with
  | [] => .error .index
  | a :: r => .ok (~~~ (r.dropLast.foldl (· ^^^ ·) a))

/-- `CompileMessage`, message.go 86-101.  The intermediate slices are local, so plain lists do.
`msg` after line 92 is `byte(len(data)+2) :: 0 :: data ++ [0]`. -/
def compileMessage (data : List UInt8) : Res (List UInt8) := do
  let msg := [0x00, 0x00] ++ data ++ [0x00]
  let msg := msg.set 0 (toByte (msg.length - 1))
  let ck ← generateChecksum msg
  let msg := msg.set (msg.length - 1) ck
  return [0x01] ++ msg

/-- `NewApplicationCommandHandler`, application_command_handler.go 17-34.  `f.Node` is never
assigned.  `data[2:]` is within bounds because `data[1]` was read. -/
def newACH (d : Slice) : Res (GoRet ACH) := do
  let command ← d.get 0
  let class_ ← d.get 1
  let rest ← d.fromIdx 2
  match newReport command class_ rest.vis with
  | .error e => return .error e
  | .ok r => return .ok { command := command, class_ := class_, node := 0, report := r }

/-- Assignment to an element of the `[232]bool` array; panics when out of range. -/
def setBool (a : List Bool) (i : Nat) (v : Bool) : Res (List Bool) :=
  if i < a.length then .ok (a.set i v) else .error .index

/-- Body of the loop, discovery_nodes.go 21-31. -/
def discSetByte (a : List Bool) (index : Nat) (bits : UInt8) : Res (List Bool) := do
  let a ← setBool a (index * 8 + 0) (bits &&& 0x01 != 0)
  let a ← setBool a (index * 8 + 1) (bits &&& 0x02 != 0)
  let a ← setBool a (index * 8 + 2) (bits &&& 0x04 != 0)
  let a ← setBool a (index * 8 + 3) (bits &&& 0x08 != 0)
  let a ← setBool a (index * 8 + 4) (bits &&& 0x10 != 0)
  let a ← setBool a (index * 8 + 5) (bits &&& 0x20 != 0)
  let a ← setBool a (index * 8 + 6) (bits &&& 0x40 != 0)
  let a ← setBool a (index * 8 + 7) (bits &&& 0x80 != 0)
  return a

/-- The loop, discovery_nodes.go 21-31. -/
def discLoop (a : List Bool) (index : Nat) : List UInt8 → Res (List Bool)
  | [] => .ok a
  | b :: r => do
    let a ← discSetByte a index b
    discLoop a (index + 1) r

/-- `NewDiscoverdNodes`, discovery_nodes.go 12-34 -/
def newDiscoverdNodes (d : List UInt8) : Res (GoRet (List Bool)) :=
  if d.length < 6 then .ok (.error .length)
  else do
    let a ← discLoop (List.replicate 232 false) 0 d
    return .ok a

/-- `NewGetNodeProtocolInfo`, get_node_protocolinfo.go 22-51.  In Go `data[0]&0x07 + 1` is
`(data[0]&0x07) + 1`: `&` binds tighter than `+`. -/
def newProtocolInfo (d : List UInt8) : GoRet ProtocolInfo :=
  match d with
  | d0 :: d1 :: _ :: d3 :: d4 :: d5 :: _ =>
    .ok { listening := d0 &&& 0x80 != 0
          routing := d0 &&& 0x40 != 0
          version := (d0 &&& 0x07) + 1
          maxBaud := if d0 &&& 0x38 = 0x10 then 40000 else 9600
          flirs := d1 &&& 0x60 != 0
          beaming := d1 &&& 0x10 != 0
          security := d1 &&& 0x01 != 0
          basic := d3
          generic := d4
          specific := d5 }
  | _ => .error .length

/-- `NewMessage`, message.go 104-135.  `7+data[6]` is computed in type `byte` and wraps.  Where the
decoder returns an error the result is `(nil, err)`. -/
def newMessage (d : Slice) : Res (GoRet Message) := do
  let start ← d.get 0
  if d.len ≤ 1 then
    return .ok { length := 0, messageType := 0, function := 0, nodeID := 0, startByte := start,
                 data := .nil }
  let length ← d.get 1
  let messageType ← d.get 2
  let function ← d.get 3
  if function = fnApplicationCommandHandler then
    let node ← d.get 5
    let n ← d.get 6
    let part ← d.sub 7 (7 + n).toNat
    match (← newACH part) with
    | .error e => return .error e
    | .ok f =>
      return .ok { length := length, messageType := messageType, function := function,
                   nodeID := node, startByte := start, data := .ach f }
  else if function = fnDiscoveryNodes then
    let n ← d.get 6
    let part ← d.sub 7 (7 + n).toNat
    match (← newDiscoverdNodes part.vis) with
    | .error e => return .error e
    | .ok a =>
      return .ok { length := length, messageType := messageType, function := function,
                   nodeID := 0, startByte := start, data := .nodes a }
  else if function = fnGetNodeProtocolInfo then
    let part ← d.fromIdx 4
    match newProtocolInfo part.vis with
    | .error e => return .error e
    | .ok p =>
      return .ok { length := length, messageType := messageType, function := function,
                   nodeID := 0, startByte := start, data := .info p }
  else
    let _ ← d.fromIdx 4
    return .error .dropping

/-- The three results of `Decode`, message.go 36. -/
structure DecodeOut where
  length : Int
  msg : Option Message
  err : Option Err
deriving DecidableEq, Repr, Inhabited

/-- `Decode`, message.go 36-70.  Besides the results it returns the caller's slice as it is after
the call: line 53 appends to `data[1:length+1]` in place. -/
def decode (d : Slice) : Res (DecodeOut × Slice) := do
  let b0 ← d.get 0
  if b0 = 0x01 then
    if d.len < 2 then return (⟨2, none, none⟩, d)
    let length := (← d.get 1).toNat
    if d.len < length + 2 then return (⟨(length + 2 : Nat), none, none⟩, d)
    let checksum ← d.get (length + 1)
    let (ckData, d') ← d.appendSub 1 (length + 1) 0x00
    let g ← generateChecksum ckData
    if checksum ≠ g then return (⟨-1, none, some .checksum⟩, d')
    match (← newMessage d') with
    | .ok m => return (⟨(length + 2 : Nat), some m, none⟩, d')
    | .error e => return (⟨(length + 2 : Nat), none, some e⟩, d')
  else if b0 = 0x06 ∨ b0 = 0x15 ∨ b0 = 0x18 then
    match (← newMessage d) with
    | .ok m => return (⟨1, some m, none⟩, d)
    | .error _ => return (⟨1, none, none⟩, d)
  else return (⟨-1, none, none⟩, d)

end Verif.Model
