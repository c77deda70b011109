import Verif.Model.Conn

/-
Data races. Go's memory model: two accesses to one variable by two goroutines, at least one of them a write, that are
not ordered. In a sequentially consistent execution such a pair shows as two goroutines whose next steps make the two
accesses. The variables are those that goroutines of a connection share: the fields of `Connection` (connection.go 15-29),
the channel in a package (43) and the variable of the range loop that a resend goroutine reads (229-232).

Which step accesses which variable is a table here. `C119_writes_sound` and `C119_reads_sound` check the table against the
steps: what it does not list has no influence.
-/

namespace Verif.Spec.Race

open Verif.Model Verif.Model.Conn

/-- The goroutines of a connection: callers, writers, their result goroutines, timeout workers, resend goroutines, and
the reader, which also opens the port. -/
inductive Thread where
  | client (u : Nat)
  | writer (w : Nat)
  | result (w : Nat)
  | timer (t : Nat)
  | resend (i : Nat)
  | reader
deriving DecidableEq, Repr

/-- The shared variables. -/
inductive Var where
  /-- `conn.inFlight`, connection.go 21 -/
  | table
  /-- `conn.lastCommand`, connection.go 23 -/
  | last
  /-- `conn.readWriteCloser`, connection.go 16 -/
  | port
  /-- `pkg.returnChan` of request `u`, connection.go 43 -/
  | chan (u : Nat)
  /-- the variable `c` of scan loop `l`, connection.go 214 -/
  | loopVar (l : Nat)
deriving DecidableEq, Repr

/-- Whose step it is. -/
def threadOf (s : St) : Label → Thread
  | .submit .. => .client s.nReq
  | .client u _ => .client u
  | .take w _ => .writer w
  | .writer w => .writer w
  | .resultTimeout w => .result w
  | .timer t => .timer t
  | .resend i => .resend i
  | .connect _ => .reader
  | .reader _ => .reader

/-- `Close`, connection.go 47-59: line 57 writes the channel, 49 and 56 read it. -/
def closeWrites (a : CloseAt) : Bool := a = .clear

/-- The next step of the goroutine writes the variable. -/
def writes (s : St) : Thread → Var → Bool
  /- lines 85, 95: the package is being made -/
  | .client u, .chan v => u = v && u = s.nReq
  | .writer w, .last =>
    match s.writer w with
    | .clear _ | .setLast _ | .reset _ => true   /- 152, 155, 178 -/
    | _ => false
  | .writer w, .table =>
    match s.writer w with
    | .insert _ | .inserting _ => true           /- 154 -/
    | _ => false
  | .timer t, .table =>
    match s.timer t with
    | .look u => u ∈ s.inFlight                  /- 349 -/
    | .deleting _ => true
    | _ => false
  | .timer t, .chan v =>
    match s.timer t with
    | .closing u a => u = v && closeWrites a     /- 57 -/
    | _ => false
  | .reader, .table =>
    match s.reader with
    | .scanNak c _ => (c.msg.map Message.isNAK).getD false  /- 224 -/
    | .scanDeleting _ _ => true
    | .frameDelete _ _ | .frameDeleting _ _ => true         /- 269 -/
    | _ => false
  | .reader, .port => s.reader = .down           /- 122 -/
  | .reader, .chan v =>
    match s.reader with
    | .scanClosing _ u a => u = v && closeWrites a
    | .frameClosing _ u a => u = v && closeWrites a
    | _ => false
  | .reader, .loopVar l =>
    match s.reader with
    | .scanNext c => c.loop = l                  /- 214 -/
    | _ => false
  | _, _ => false

/-- The next step of the goroutine reads the variable. -/
def reads (s : St) : Thread → Var → Bool
  /- lines 90 and 103 -/
  | .client u, .chan v => u = v && s.client u = .handed
  | .writer w, .port =>
    match s.writer w with
    | .write _ => true                           /- 174 -/
    | _ => false
  | .timer t, .table =>
    match s.timer t with
    | .look _ => true                            /- 346 -/
    | _ => false
  | .timer t, .chan v =>
    match s.timer t with
    | .closing u _ => u = v                      /- 49, 56 -/
    | _ => false
  | .resend i, .loopVar l => s.resend i = .sleep (.loopVar l)  /- 232 -/
  | .reader, .table =>
    match s.reader with
    | .exec =>
      match s.acts with
      | .ctrl _ _ :: _ => true                   /- 214, start of the loop -/
      | _ => false
    | .scanNext _ => true                        /- 214 -/
    | .frameLock _ _ => s.lock = none            /- 254, once 253 has the lock -/
    | .frameNext _ => true
    | _ => false
  | .reader, .last =>
    match s.reader with
    | .scanTest _ _ => true                      /- 216 -/
    | _ => false
  | .reader, .port =>
    match s.reader with
    | .read => true                              /- 190, 193 -/
    | .exec =>
      match s.acts with
      | .ack :: _ => true                        /- 285 -/
      | _ => false
    | _ => false
  | .reader, .chan v =>
    match s.reader with
    | .scanClosing _ u _ => u = v
    | .frameOpen _ u => u = v                    /- 65 -/
    | .frameSend _ u => u = v                    /- 262 -/
    | .frameClosing _ u _ => u = v
    | _ => false
  | _, _ => false

/-- The goroutine `a` is about to write what `b` is about to read or write. -/
def Race (s : St) (a b : Thread) (v : Var) : Prop :=
  a ≠ b ∧ writes s a v = true ∧ (reads s b v = true ∨ writes s b v = true)

/-- A variable holds the same in both states. Closing the port (193) changes the port, not the variable that holds it. -/
def Same (s s' : St) : Var → Prop
  | .table => s'.inFlight = s.inFlight ∧ s'.mapBusy = s.mapBusy
  | .last => s'.lastCommand = s.lastCommand
  | .port => s'.port = .nil ↔ s.port = .nil
  | .chan u => s'.field u = s.field u
  | .loopVar l => s'.loopVar l = s.loopVar l

/-- The states are equal but for the variable. -/
def AgreeOff (v : Var) (s t : St) : Prop :=
  t = match v with
    | .table => { s with inFlight := t.inFlight, mapBusy := t.mapBusy }
    | .last => { s with lastCommand := t.lastCommand }
    | .port => { s with port := t.port }
    | .chan u => { s with field := upd s.field u (t.field u) }
    | .loopVar l => { s with loopVar := upd s.loopVar l (t.loopVar l) }

/-- The pairs of accesses that are not ordered by the lock of the connection or by a channel: `a` writes, `b` reads or
writes. Every one of them involves one of the lines 122, 178, 214, 90/103 and 232. -/
inductive Unordered (lv : LoopVars) (s : St) : Thread → Thread → Var → Prop where
  /-- the range loop over the table, line 214, runs without the lock; a writer or a timeout worker has it -/
  | iterate {a : Thread} (h : (∃ c, s.reader = .scanNext c) ∨ s.reader = .exec)
      (ha : (∃ w u, a = .writer w ∧ (s.writer w = .insert u ∨ s.writer w = .inserting u)) ∨
        ∃ t u, a = .timer t ∧ (s.timer t = .look u ∨ s.timer t = .deleting u)) : Unordered lv s a .reader .table
  /-- a writer forgets its command, line 178, without the lock -/
  | forget {w u : Nat} {b : Thread} (h : s.writer w = .reset u) : Unordered lv s (.writer w) b .last
  | forgotten {w u : Nat} {a : Thread} (h : s.writer w = .reset u) : Unordered lv s a (.writer w) .last
  /-- the port is opened again, line 122, while a writer left from before is writing -/
  | reopen {w u : Nat} (h : s.reader = .down) (hw : s.writer w = .write u) : Unordered lv s .reader (.writer w) .port
  /-- a caller fetches the channel, line 90 or 103, while it is being closed -/
  | fetch {u : Nat} {a : Thread} (h : s.client u = .handed)
      (ha : (a = .reader ∧ ∃ c d, s.reader = .scanClosing c u .clear ∨ s.reader = .frameClosing d u .clear) ∨
        ∃ t, a = .timer t ∧ s.timer t = .closing u .clear) : Unordered lv s a (.client u) (.chan u)
  /-- a resend goroutine reads the variable of the loop, line 232 (loop variables before Go 1.22) -/
  | capture {i l : Nat} (h : lv = .perLoop) (hr : s.resend i = .sleep (.loopVar l)) :
      Unordered lv s .reader (.resend i) (.loopVar l)

end Verif.Spec.Race
