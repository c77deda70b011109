import Verif.Model.Tools

/-
The serial recorder as a machine, serialrecorder/serialrecorder.go, and the decoding loop of the program that reads
its recordings, cmd/serialrecordingtohex/serialrecordingtohex.go 39-58.

A recorder wraps the serial port.  Every `Read` and `Write` starts a goroutine which takes the time and sends a row to
a channel; the row refers to the caller's buffer.  Every `Open` starts another goroutine which encodes rows with an
encoder of its own.  Buffers are numbered; their owner may change them at any time.

Simplifications: `encoding/gob` (Go's standard library, from its documentation): an encoder writes the definitions of
the types once, before its first value, and each of the two messages in one `Write`; a decoder fails on values of
unknown types, on repeated definitions ("gob: duplicate type received") and on definitions at the end of the stream
("unexpected EOF"; versions of 2017 take this for the end).  All definitions are one item of the
stream, a row is one item; the bytes of items are not modelled, `Logger` does not fail.  Reading the data of a row and
writing the item are one step.  The wall clock may be set back (time stamps are arbitrary).
-/

namespace Verif.Model.Rec

open Verif.Model

/-- An item of the stream that the encoders write. -/
inductive Item where
  | defs
  | row (r : RecRow)
deriving DecidableEq, Repr

/-- One call of `Read` or `Write`: direction, buffer, number of bytes, and (for the statements only) the bytes that
passed the port. -/
structure Call where
  write : Bool
  buf : Nat
  n : Nat
  data : List UInt8
deriving DecidableEq, Repr, Inhabited

/-- Where the row of a call is: its goroutine has not run, `time.Now()` was taken (52-53), it is in the channel, with
the log writer `e`, encoded. -/
inductive Place where
  | started
  | stamped
  | queued
  | encoding (e : Nat)
  | logged
deriving DecidableEq, Repr

/-- A log writer, 59-68: whether its encoder has written the definitions, and the row it has received. -/
structure Enc where
  defined : Bool
  row : Option Nat
deriving DecidableEq, Repr, Inhabited

structure St where
  /-- the memory of the callers -/
  mem : Nat → List UInt8
  nCall : Nat
  call : Nat → Call
  place : Nat → Place
  /-- time stamps -/
  ts : Nat → Int
  /-- `writeBuffer`, oldest first -/
  queue : List Nat
  nEnc : Nat
  enc : Nat → Enc
  /-- what `Logger` has received -/
  out : List Item
  /-- the calls whose rows are in `out`, in that order (for the statements only) -/
  log : List Nat

/-- `New`, 30-37: nothing is running. -/
def init : St where
  mem := fun _ => []
  nCall := 0
  call := fun _ => default
  place := fun _ => .started
  ts := fun _ => 0
  queue := []
  nEnc := 0
  enc := fun _ => ⟨false, none⟩
  out := []
  log := []

inductive Label where
  /-- `Open`, 73-79 -/
  | open
  /-- the owner of buffer `b` fills it -/
  | set (b : Nat) (bytes : List UInt8)
  /-- `Read` into buffer `b`: the port delivers `bytes`, 39-43 -/
  | read (b : Nat) (bytes : List UInt8)
  /-- `Write` of buffer `b`: the port accepts `n` bytes, 45-49 -/
  | write (b n : Nat)
  /-- the goroutine of call `i` takes the time -/
  | stamp (i : Nat) (t : Int)
  /-- the goroutine of call `i` sends its row -/
  | send (i : Nat)
  /-- log writer `e` receives a row -/
  | take (e : Nat)
  /-- log writer `e` writes the next item -/
  | encode (e : Nat)
deriving DecidableEq, Repr

/-- `m` with `m i = a`. -/
def upd {α : Type} (m : Nat → α) (i : Nat) (a : α) : Nat → α := fun j => if j = i then a else m j

/-- The row of call `i` as an encoder sees it now: the slice `p[:n]` is read when the row is encoded. -/
def St.rowOf (s : St) (i : Nat) : RecRow := ⟨s.ts i, (s.call i).write, (s.mem (s.call i).buf).take (s.call i).n⟩

/-- One step; `none` if it is impossible. Before the first `Open` there is no port to use. -/
def step (s : St) : Label → Option St
  | .open => some { s with nEnc := s.nEnc + 1 }
  | .set b bytes => some { s with mem := upd s.mem b bytes }
  | .read b bytes =>
    if 0 < s.nEnc ∧ bytes.length ≤ (s.mem b).length then
      some { s with
        mem := upd s.mem b (bytes ++ (s.mem b).drop bytes.length)
        nCall := s.nCall + 1
        call := upd s.call s.nCall ⟨false, b, bytes.length, bytes⟩ }
    else none
  | .write b n =>
    if 0 < s.nEnc ∧ n ≤ (s.mem b).length then
      some { s with
        nCall := s.nCall + 1
        call := upd s.call s.nCall ⟨true, b, n, (s.mem b).take n⟩ }
    else none
  | .stamp i t =>
    if i < s.nCall ∧ s.place i = .started then
      some { s with place := upd s.place i .stamped, ts := upd s.ts i t }
    else none
  | .send i =>
    if i < s.nCall ∧ s.place i = .stamped ∧ s.queue.length < 100 then
      some { s with place := upd s.place i .queued, queue := s.queue ++ [i] }
    else none
  | .take e =>
    match s.queue with
    | i :: q =>
      if e < s.nEnc ∧ (s.enc e).row = none then
        some { s with queue := q, place := upd s.place i (.encoding e), enc := upd s.enc e { s.enc e with row := some i } }
      else none
    | [] => none
  | .encode e =>
    if e < s.nEnc then
      match (s.enc e).row with
      | some i =>
        if (s.enc e).defined then
          some { s with
            out := s.out ++ [.row (s.rowOf i)]
            log := s.log ++ [i]
            place := upd s.place i .logged
            enc := upd s.enc e { s.enc e with row := none } }
        else
          some { s with out := s.out ++ [.defs], enc := upd s.enc e { s.enc e with defined := true } }
      | none => none
    else none

def run (s : St) : List Label → Option St
  | [] => some s
  | l :: ls => (step s l).bind fun s' => run s' ls

def Reachable (s : St) : Prop := ∃ ls, run init ls = some s

/-- A decoder that knows the types or not, reading the rest of a stream to its end. -/
def decodeFrom : Bool → List Item → Option (List RecRow)
  | _, [] => some []
  | _, [.defs] => none
  | known, .defs :: is => if known then none else decodeFrom true is
  | known, .row r :: is => if known then (decodeFrom true is).map (r :: ·) else none

/-- The rows the program reads, serialrecordingtohex.go 39-58; `none`: it ends with an error message (`log.Fatalf`)
before printing anything. -/
def decodeAll (out : List Item) : Option (List RecRow) := decodeFrom false out

end Verif.Model.Rec
