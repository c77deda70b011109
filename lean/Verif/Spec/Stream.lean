import Verif.Model.Reader
import Verif.Spec.Frame

/-
Specification of byte streams from the stick and of what the reader should do with them.
-/

namespace Verif.Spec

open Verif.Go Verif.Model

/-- A frame that can be parsed on its own. -/
def GoodFrame (f : List UInt8) : Prop := ∃ body, IsFrame body f ∧ SaneBody body

/-- The pieces of a stream: good frames, and noise bytes that are neither a start byte nor a
control byte. -/
inductive Tok where
  | frame (f : List UInt8)
  | noise (b : UInt8)

/-- The bytes of a piece. -/
def Tok.bytes : Tok → List UInt8
  | .frame f => f
  | .noise b => [b]

/-- The piece is what its name says. -/
def Tok.Ok : Tok → Prop
  | .frame f => GoodFrame f
  | .noise b => b ≠ 0x01 ∧ b ≠ 0x06 ∧ b ≠ 0x15 ∧ b ≠ 0x18

/-- The bytes of a sequence of pieces. -/
def bytesOf (ts : List Tok) : List UInt8 := (ts.map Tok.bytes).flatten

/-- The message obtained by decoding a frame on its own. -/
def loneMsg (f : List UInt8) : Option Message :=
  match decode ⟨f, []⟩ with
  | .ok (o, _) => o.msg
  | .error _ => none

/-- Forget what follows the frame in the buffer (the buffer handed to the matcher also contains
later bytes, which do depend on chunking). -/
def core : Act → Act
  | .frame seen l msg => .frame ⟨seen.vis.take l, []⟩ l msg
  | a => a

/-- The frame with its checksum byte zeroed (what is left in the buffer after decoding, see C05). -/
def zeroed (f : List UInt8) : List UInt8 := f.set (f.length - 1) 0x00

/-- What the reader should do for one piece: a frame is matched against outstanding requests with
its own message, its report (if any) is handed to the callback, then one ACK is written. -/
def Tok.expected : Tok → List Act
  | .frame f =>
    [.frame ⟨zeroed f, []⟩ f.length (loneMsg f)] ++
      (match loneMsg f with
        | some m => (match m.data with
          | .ach a => [.callback m.nodeID a.report]
          | _ => [])
        | none => []) ++ [.ack]
  | .noise _ => []

/-- What the reader should do for a sequence of pieces. -/
def expectedAll (ts : List Tok) : List Act := (ts.map Tok.expected).flatten

/-- The message of a lone control byte. -/
def ctrlMsg (b : UInt8) : Message :=
  { length := 0, messageType := 0, function := 0, nodeID := 0, startByte := b, data := .nil }

/-- A burst: pieces followed by at most one control byte (ACK, NAK or CAN) that ends the burst. -/
structure Burst where
  toks : List Tok
  last : Option UInt8

/-- All pieces are what they say and the last byte is a control byte. -/
def Burst.Ok (b : Burst) : Prop :=
  (∀ t ∈ b.toks, t.Ok) ∧ ∀ c, b.last = some c → c = 0x06 ∨ c = 0x15 ∨ c = 0x18

/-- The bytes of a burst. -/
def Burst.bytes (b : Burst) : List UInt8 := bytesOf b.toks ++ b.last.toList

/-- What the reader should do for a burst. -/
def Burst.expected (b : Burst) : List Act :=
  expectedAll b.toks ++ (match b.last with
    | some c => [.ctrl c (some (ctrlMsg c))]
    | none => [])

end Verif.Spec
