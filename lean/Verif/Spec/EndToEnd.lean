import Verif.Spec.Stream
import Verif.Spec.ConnReader
import Verif.Spec.Ctl
import Verif.Spec.Node

/-
The way of a report from the wire to the state of a node.
-/

namespace Verif.Spec

open Verif.Go Verif.Model Verif.Model.Conn

/-- Frame `f` is a command from `node`: command class `cls`, command `cmd` and data `payload`; the command is
announced with its length and more bytes may follow in the frame. -/
def CarriesCmd (f : List UInt8) (node cls cmd : UInt8) (payload : List UInt8) : Prop :=
  ∃ ty rx n rest, IsFrame (ty :: 0x04 :: rx :: node :: n :: cls :: cmd :: (payload ++ rest)) f ∧
    n.toNat = payload.length + 2 ∧ n.toNat ≤ 248

/-- The frames among the pieces of a stream. -/
def framesOf (ts : List Tok) : List (List UInt8) :=
  ts.filterMap fun t => match t with
    | .frame f => some f
    | .noise _ => none

/-- One session as seen from the stick: bursts, each with the reads in which it arrives; only the first read of a
burst may come after a pause. -/
abbrev Session := List (Burst × Read × List Read)

/-- The bursts are made of good frames, noise and control bytes, and the reads deliver exactly their bytes. -/
def Session.Ok (x : Session) : Prop :=
  ∀ b ∈ x, b.1.Ok ∧ (∀ y ∈ b.2.2, y.aged = false) ∧ ((b.2.1 :: b.2.2).map Read.chunk).flatten = b.1.bytes

/-- The reads of a session. -/
def Session.reads (x : Session) : List Read := (x.map fun b => b.2.1 :: b.2.2).flatten

/-- The frames of a session. -/
def Session.frames (x : Session) : List (List UInt8) := (x.map fun b => framesOf b.1.toks).flatten

/-- The frames of several sessions, the latest of which stands first; oldest frame first. -/
def onWire (xs : List Session) : List (List UInt8) := (xs.reverse.map Session.frames).flatten

/-- Frame `f` is report `r` of node `b`. -/
def IsReport (f : List UInt8) (b : UInt8) (r : Report) : Prop :=
  ∃ cls cmd payload, CarriesCmd f b cls cmd payload ∧ newReport cls cmd payload = .ok r

/-- Frame `f` says that the switch of node `b` is on or off: a binary or multilevel switch report, in its short or
its long form. -/
def WireOn (f : List UInt8) (b : UInt8) (x : Bool) : Prop :=
  (∃ v, CarriesCmd f b 0x25 0x03 [v] ∧ x = decide (v = 0xFF)) ∨
  (∃ v t d, CarriesCmd f b 0x25 0x03 [v, t, d] ∧ x = decide (v ≠ 0)) ∨
  (∃ v, CarriesCmd f b 0x26 0x03 [v] ∧ x = decide (v ≠ 0)) ∨
  (∃ v t d, CarriesCmd f b 0x26 0x03 [v, t, d] ∧ x = decide (v ≠ 0))

/-- Frame `f` says that the level of node `b` is `n`. -/
def WireLevel (f : List UInt8) (b : UInt8) (n : Nat) : Prop :=
  (∃ v, CarriesCmd f b 0x26 0x03 [v] ∧ n = min v.toNat 100) ∨
  (∃ v t d, CarriesCmd f b 0x26 0x03 [v, t, d] ∧ n = min v.toNat 100)

/-- The reports the connection has handed to the callback, oldest first. -/
def callbacks (s : St) : List (UInt8 × Report) :=
  s.hist.reverse.filterMap fun e => match e with
    | .callback n r => some (n, r)
    | _ => none

/-- The reports that reached the controller, oldest first. -/
def arrivals (h : List CEv) : List (UInt8 × Report) :=
  h.reverse.filterMap fun e => match e with
    | .arrived _ id r => some (id, r)
    | _ => none

end Verif.Spec
