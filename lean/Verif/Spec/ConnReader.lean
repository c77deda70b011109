import Verif.Model.Conn

/-
What the outside can see of the reader in an execution of the whole connection, and what it should be: what the
byte level reader does with the bytes that were read (Verif.Model.Reader, about which C07-C11 speak).
-/

namespace Verif.Spec

open Verif.Go Verif.Model Verif.Model.Conn

/-- What the reader does for others to see. -/
inductive Obs where
  /-- a frame was matched against the outstanding requests -/
  | frame (buf : Slice) (msg : Option Message)
  /-- a report was handed to the callback -/
  | report (node : UInt8) (r : Report)
  /-- an ACK was written -/
  | ack
deriving DecidableEq, Repr

/-- An event of the machine, seen that way. -/
def obsEv : Ev → Option Obs
  | .frame b m => some (.frame b m)
  | .callback n r => some (.report n r)
  | .ack => some .ack
  | _ => none

/-- An action of the byte level reader, seen that way. -/
def obsAct : Act → Option Obs
  | .frame b _ m => some (.frame b m)
  | .callback n r => some (.report n r)
  | .ack => some .ack
  | .ctrl _ _ => none

/-- What has been seen of the reader, oldest first. -/
def observed (s : St) : List Obs := s.hist.reverse.filterMap obsEv

/-- One more step: opening the port begins a session, a read belongs to the current one. -/
def sessionStep : List (List Read) → Label → List (List Read)
  | ss, .connect true => [] :: ss
  | s :: ss, .reader (.read r) => (s ++ [r]) :: ss
  | ss, _ => ss

/-- The reads of an execution, by session; the latest session first. (The last one in the list is always empty: it
is the time before the port is first opened.) -/
def sessions (ls : List Label) : List (List Read) := ls.foldl sessionStep [[]]

/-- What the byte level reader does with the sessions, each beginning with an empty buffer; oldest first. -/
def expected : List (List Read) → Res (List Act)
  | [] => .ok []
  | s :: ss => (expected ss).bind fun as => (feed ⟨[], []⟩ s).map fun x => as ++ x.1

end Verif.Spec
