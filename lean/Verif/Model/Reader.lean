import Verif.Model.Serial

/-
The byte-level half of `Connection.Reader`, connection.go 183-291: buffering, frame extraction,
report callbacks and acknowledgements.  What is done with the in-flight table is in
`Verif.Model.Conn`; here the points where the table is consulted are recorded as actions.
-/

namespace Verif.Model

open Verif.Go

/-- What one iteration of the inner loop does to the outside, in program order. -/
inductive Act where
  /-- lines 213-238: the in-flight table is scanned with a control byte -/
  | ctrl (b : UInt8) (msg : Option Message)
  /-- lines 252-272: the in-flight table is matched against the whole buffer `seen`; the frame is
  its first `l` bytes -/
  | frame (seen : Slice) (l : Nat) (msg : Option Message)
  /-- line 277: `go conn.reportCallback(msg.NodeID, cmd.Report)` -/
  | callback (node : UInt8) (r : Report)
  /-- line 285: an ACK byte is written to the port -/
  | ack
deriving DecidableEq, Repr, Inhabited

/-- Result of one iteration of the inner loop, connection.go 207-288. -/
inductive Iter where
  /-- line 242 `break`: wait for more data -/
  | wait (buf : Slice)
  /-- lines 245-250: first byte removed, `continue` -/
  | drop (buf : Slice)
  /-- end of the loop body reached -/
  | done (acts : List Act) (rest : Slice)
deriving DecidableEq, Repr, Inhabited

/-- connection.go 274-279 -/
def callbackOf : Option Message → List Act
  | some m =>
    match m.data with
    | .ach f => [.callback m.nodeID f.report]
    | _ => []
  | none => []

/-- One iteration of the inner loop, connection.go 207-288, for a non-empty buffer.  The slice
expressions `incomming[1:]` and `incomming[l:]` can panic in principle, hence `fromIdx`. -/
def iter (buf : Slice) : Res Iter := do
  let (o, buf) ← decode buf
  let first ← if o.length = 1 then (buf.get 0).map fun b => [Act.ctrl b o.msg] else .ok []
  if o.length > buf.len then return .wait buf
  if o.length = -1 then
    let rest ← buf.fromIdx 1
    return .drop rest
  let second := if o.length > 1 then [Act.frame buf o.length.toNat o.msg] else []
  if o.length < 0 then throw .slice
  let rest ← buf.fromIdx o.length.toNat
  let third := if o.length > 1 then [Act.ack] else []
  return .done (first ++ second ++ callbackOf o.msg ++ third) rest

/-- The inner loop with a bound on the number of iterations (`none`: bound exhausted),
connection.go 207-288. -/
def drainFuel : Nat → Slice → Option (Res (List Act × Slice))
  | 0, buf => if buf.len = 0 then some (.ok ([], buf)) else none
  | n + 1, buf =>
    if buf.len = 0 then some (.ok ([], buf))
    else
      match iter buf with
      | .error p => some (.error p)
      | .ok (.wait b) => some (.ok ([], b))
      | .ok (.drop b) => drainFuel n b
      | .ok (.done as r) =>
        (drainFuel n r).map fun res => res.map fun x => (as ++ x.1, x.2)

/-- The inner loop `for len(incomming) > 0`, connection.go 207-288.  The number of iterations never
exceeds the buffer length (theorem `C10_drain_terminates`), so the bound is not a restriction; the
`none` branch is unreachable. -/
def drain (buf : Slice) : Res (List Act × Slice) :=
  match drainFuel buf.len buf with
  | some r => r
  | none => .error .index

/-- One `Read` of the port, connection.go 188-205: the bytes read, whether more than 40 ms passed
since the previous append, and the spare capacity the runtime happens to leave after the append
(always zero bytes: `append` clears fresh memory and nothing in /repo writes there). -/
structure Read where
  chunk : List UInt8
  aged : Bool
  spare : Nat
deriving DecidableEq, Repr, Inhabited

/-- connection.go 199-205 -/
def appendRead (buf : Slice) (r : Read) : Slice :=
  ⟨(if r.aged then [] else buf.vis) ++ r.chunk, List.replicate r.spare 0⟩

/-- The outer loop of `Reader` over a finite history of reads, connection.go 187-289. -/
def feed (buf : Slice) : List Read → Res (List Act × Slice)
  | [] => .ok ([], buf)
  | r :: rs => do
    let (as, buf') ← drain (appendRead buf r)
    let (as', buf'') ← feed buf' rs
    return (as ++ as', buf'')

end Verif.Model
