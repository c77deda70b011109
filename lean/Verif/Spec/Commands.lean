import Verif.Model.Node

/-
Specification of commands sent to nodes.
-/

namespace Verif.Spec

open Verif.Go Verif.Model

/-- The serial API payload of "set" for a switch: SendData, node, three command bytes (class, set,
value), transmit options. -/
def setPayload (node cls value : UInt8) : List UInt8 := [0x13, node, 0x03, cls, 0x01, value, 0x25]

/-- `v` is the level that should be sent for a requested level `q`: `q` limited to 0 … 99, fraction
cut off. -/
def IsLevel (q : Rat) (v : Nat) : Prop :=
  (q < 0 ∧ v = 0) ∨ (99 < q ∧ v = 99) ∨ (0 ≤ q ∧ q ≤ 99 ∧ (v : Rat) ≤ q ∧ q < v + 1)

/-- Removing a multi channel encapsulation: the inner command and the endpoint. -/
def decap : List UInt8 → Option (List UInt8 × UInt8)
  | f :: n :: l :: 0x60 :: 0x0D :: 0x01 :: ep :: rest => some (f :: n :: (l - 4) :: rest, ep)
  | _ => none

/-- The node is known to support a command class. -/
def Supports (n : Node) (c : UInt8) : Prop := ∃ cs v, n.classes = some cs ∧ v ∈ cs ∧ v.id = c

end Verif.Spec
