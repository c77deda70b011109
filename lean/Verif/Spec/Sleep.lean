import Verif.Spec.Process

/-
What a frame says about a node being awake, and requests that a node has to answer itself.
-/

namespace Verif.Spec

open Verif.Go Verif.Model Verif.Model.Conn

/-- Frame `f` is a wake-up notification of node `b`: command 0x07 of class 0x84. -/
def SaysAwake (f : List UInt8) (b : UInt8) : Prop := ∃ payload, CarriesCmd f b 0x84 0x07 payload

/-- Frame `f` is some command of the wake-up class from node `b`: the notification, or a report of the interval or of the
capabilities. -/
def OfWakeUpClass (f : List UInt8) (b : UInt8) : Prop := ∃ cmd payload, CarriesCmd f b 0x84 cmd payload

/-- Frame `f` is a protocol info reply about a node that listens all the time. -/
def SaysListening (f : List UInt8) : Prop := ∃ p, SaysInfo f p ∧ p.listening = true

/-- A request to send something to node `b` by radio. -/
def Contacts (data : List UInt8) (b : UInt8) : Prop := ∃ rest, data = 0x13 :: b :: rest

end Verif.Spec
