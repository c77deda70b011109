import Verif.Model.NodeM

/-
What an identification may ask, as bytes: written from the Z-Wave command tables, not from the code.
-/

namespace Verif.Spec

open Verif.Go Verif.Model

/-- `d` is the request for `p` addressed to node `b`. The stick itself is asked for protocol info (function 0x41);
everything else is a SendData (function 0x13) with the node, a length, and a "get" command. -/
def Query (b : UInt8) : Option Purpose → List UInt8 → Prop
  | none, d => d = [0x41, b]
  | some .manufacturer, d => ∃ n, d = [0x13, b, n, 0x72, 0x04, 0x00]
  | some .endpoints, d => ∃ n, d = [0x13, b, n, 0x60, 0x07, 0x25]
  | some .states, d => ∃ n c k, d = [0x13, b, n, c, k, 0x25] ∧
      ((c = 0x25 ∧ k = 0x02) ∨ (c = 0x26 ∧ k = 0x02) ∨ (c = 0x31 ∧ k = 0x01))

/-- The classes whose state is asked for. -/
def hasState (c : UInt8) : Prop := c = 0x25 ∨ c = 0x26 ∨ c = 0x31

/-- `d` asks for the state of class `c`. -/
def asksFor (c : UInt8) (d : List UInt8) : Prop := d[3]? = some c

/-- Commands that make a device do something: switch binary set, switch multilevel set, basic set. -/
def isSet (d : List UInt8) : Prop :=
  (d[3]? = some 0x25 ∨ d[3]? = some 0x26 ∨ d[3]? = some 0x20) ∧ d[4]? = some 0x01

end Verif.Spec
