import Verif.Spec.Process
import Verif.Spec.NodeAsk

/-
What the library asks, and the wire.
-/

namespace Verif.Spec

open Verif.Go Verif.Model Verif.Model.Conn

/-- These bytes were given to the connection as request `u`. -/
def Given (s : St) (u : Nat) (d : List UInt8) : Prop := ∃ kind to er, Ev.submit u d kind to er ∈ s.hist

/-- A proper frame with these bytes was written to the port. -/
def Written (s : St) (d : List UInt8) : Prop := ∃ w u x, Ev.cmd w u x ∈ s.hist ∧ IsFrame (0x00 :: d) x

/-- Reading from the port never fails. -/
def PortHolds {lv : LoopVars} {db : DB} (e : Exec (wStep lv db)) : Prop := ∀ m, e.lab m ≠ some (.sys (.conn (.reader .fail)))

/-- The command that asks for the state of a class: binary switch, multilevel switch, multilevel sensor. -/
def getOf (c : UInt8) : UInt8 := if c = 0x31 then 0x01 else 0x02

end Verif.Spec
