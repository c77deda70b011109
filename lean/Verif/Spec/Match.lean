import Verif.Spec.Stream
import Verif.Model.Match

/-
Specification of which received frame answers which request, in terms of the request payload (the
bytes handed to one of the write functions) and the body of the received frame.
-/

namespace Verif.Spec

open Verif.Go Verif.Model

/-- A byte of the request that is absent or zero matches anything, otherwise it has to be the given
byte of the reply. -/
def Agrees (want : UInt8) (got : Option UInt8) : Prop := want = 0 ∨ got = some want

/-- The function a request asks for: its first byte. -/
def reqFunction (data : List UInt8) : UInt8 := data.headD 0
/-- The node a request addresses: its second byte. -/
def reqNode (data : List UInt8) : UInt8 := data.tail.headD 0
/-- The command class of a request: its fourth byte, if the request is long enough for a command. -/
def reqClass (data : List UInt8) : UInt8 := if 4 < data.length then (data.drop 3).headD 0 else 0

/-- The frame with the given body answers the request `data` (waiting for report `er`): function
as asked, or a command-handler report for SendData; and, except for protocol-info requests, same
node, same command class, expected report. Body layout: type, function, status, node, length, class,
command. -/
def Answers (data : List UInt8) (er : UInt8) (body : List UInt8) : Prop :=
  (Agrees (reqFunction data) body[1]? ∨ (reqFunction data = 0x13 ∧ body[1]? = some 0x04)) ∧
  (reqFunction data ≠ 0x41 →
    Agrees (reqNode data) body[3]? ∧ Agrees (reqClass data) body[5]? ∧ Agrees er body[6]?)

end Verif.Spec
