import Verif.Go.Float
import Verif.Model.Serial

/-
commands/SwitchBinary.go, SwitchMultilevel.go, raw.go, MultiChannelEncap.go, serialapi/raw.go.
Commands are represented by their fields; setters are folded into constructors.
-/

namespace Verif.Model

open Verif.Go

/-- `CmdSwitchBinary.Encode`, commands/SwitchBinary.go 22-37, for a command built with `SetValue`
(13-16) and `SetNode` (17-20: the node id is narrowed to a byte). -/
def switchBinaryEncode (node : Int) (value : Bool) : List UInt8 :=
  [0x13, intToByte node, 0x03, ccSwitchBinary, 0x01, if value then 0xFF else 0x00, 0x25]

/-- `CmdSwitchMultilevel.SetValue`, commands/SwitchMultilevel.go 13-23: the level byte.  The two
comparisons are made in order on the possibly already replaced value. -/
def multilevelLevel (undef : Float64 → UInt8) (v : Float64) : UInt8 :=
  let v := if v.lt (.fin 1) then .fin 0 else v
  let v := if (Float64.fin 99).lt v then .fin 99 else v
  v.toByte undef

/-- `CmdSwitchMultilevel.Encode`, commands/SwitchMultilevel.go 29-39 -/
def switchMultilevelEncode (undef : Float64 → UInt8) (node : Int) (v : Float64) : List UInt8 :=
  [0x13, intToByte node, 0x03, ccSwitchMultilevel, 0x01, multilevelLevel undef v, 0x25]

/-- `commands.Raw.Encode`, commands/raw.go 15-22 -/
def rawEncode (node : Int) (data : List UInt8) : List UInt8 :=
  [0x13, intToByte node, toByte (data.length + 1)] ++ data

/-- `MultiChannelEncap.Encode`, commands/MultiChannelEncap.go 15-31; indexing panics for fewer than
three bytes. -/
def encapEncode (msg : List UInt8) (endpoint : Int) : Res (List UInt8) :=
  match msg with
  | m0 :: m1 :: m2 :: rest =>
    .ok ([m0, m1, m2 + 4, ccMultiInstance, 0x0D, 0x01, intToByte endpoint] ++ rest)
  | _ => .error .index

/-- `serialapi.Raw.Encode`, serialapi/raw.go: the data unchanged -/
def serialRawEncode (data : List UInt8) : List UInt8 := data

end Verif.Model
