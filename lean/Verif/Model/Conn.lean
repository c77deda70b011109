import Verif.Model.Match

/-
The concurrent part of connection.go as a state machine: callers, `Writer` goroutines, their result
goroutines, `timeoutWorker`s, resend goroutines and the `Reader`, all interleaved step by step.

* Each step is one access to shared state (or a few accesses to thread-local state).
* The connection's RWMutex is explicit (`lock`).  `RLock` is used by the reader goroutine only, and
  there is only one reader goroutine, so a single owner is enough.
* The RWMutex inside a `sendPackage` is left out: `Close` and `IsOpen` are interleaved more freely
  than in Go, so what is proved here holds with the locks too.
* A map write has a beginning and an end (`mapBusy` is Go's hashWriting flag); iterating or writing
  in between is Go's fatal error "concurrent map iteration and map write".
* Timers (50 ms, 100 ms, 1 s, the request timeout) may fire after any delay: time is nondeterminism.
* uuids are request numbers: `uuid.New()` is trusted to return fresh values.
* `hist` is a ghost history (newest first), never read by the machine.
-/

namespace Verif.Model.Conn

open Verif.Go Verif.Model

/-- Meaning of a loop variable captured by a closure: one variable per loop (Go before 1.22) or one
per iteration (Go 1.22 and later with a go.mod that says so).  /repo has no go.mod. -/
inductive LoopVars where
  | perLoop
  | perIteration
deriving DecidableEq, Repr

/-- The three ways to submit a request, connection.go 78-114. -/
inductive Kind where
  | write
  | withTimeout
  | waitReport
deriving DecidableEq, Repr, Inhabited

/-- A submitted request: `sendPackage` without its mutable fields.  `timeout` is `timeout != 0`. -/
structure Req where
  pkg : Pkg
  kind : Kind
  timeout : Bool
deriving DecidableEq, Repr, Inhabited

/-- Has a return channel: connection.go 85, 95. -/
def Req.hasChan (r : Req) : Bool :=
  match r.kind with
  | .write => false
  | _ => true

/-- Where the caller of a write function is, connection.go 78-114. -/
inductive Client where
  /-- blocked in `conn.send <- pkg` -/
  | sending
  /-- the send has completed; `pkg.returnChan` has not been read yet (lines 90, 101) -/
  | handed
  /-- holds the channel and listens to it -/
  | has
  /-- received a message and is not listening -/
  | received
  /-- read a nil channel: blocks for ever when listening -/
  | nilChan
  /-- saw the channel closed, or (`waitReport`) forwarded a report, or is a `Write` that returned -/
  | done
deriving DecidableEq, Repr, Inhabited

/-- The lines of `sendPackage.Close`, connection.go 47-59. -/
inductive CloseAt where
  /-- line 49: `sp.returnChan == nil` -/
  | check
  /-- line 56: `close(sp.returnChan)` -/
  | close
  /-- line 57: `sp.returnChan = nil` -/
  | clear
deriving DecidableEq, Repr, Inhabited

/-- `Writer`, connection.go 146-181. -/
inductive WriterAt where
  /-- not started -/
  | absent
  /-- lines 148-150 -/
  | idle
  /-- line 151: `conn.Lock()` -/
  | lock (u : Nat)
  /-- line 152: `conn.lastCommand = ""` -/
  | clear (u : Nat)
  /-- line 154, before the map write -/
  | insert (u : Nat)
  /-- line 154, during the map write -/
  | inserting (u : Nat)
  /-- line 155 -/
  | setLast (u : Nat)
  /-- lines 157-159: start of the timeout worker -/
  | timer (u : Nat)
  /-- lines 161-171: start of the result goroutine -/
  | spawn (u : Nat)
  /-- line 174: `Write` -/
  | write (u : Nat)
  /-- line 175: `Unlock` -/
  | unlock (u : Nat)
  /-- line 177: `<-abort` -/
  | await (u : Nat)
  /-- line 178: `conn.lastCommand = ""`, without the lock -/
  | reset (u : Nat)
deriving DecidableEq, Repr, Inhabited

/-- The result goroutine of a writer, connection.go 162-171. -/
inductive ResultAt where
  | absent
  | waiting (u : Nat)
  | finished
deriving DecidableEq, Repr, Inhabited

/-- `timeoutWorker`, connection.go 342-354. -/
inductive TimerAt where
  | absent
  /-- lines 343-345 -/
  | sleep (u : Nat)
  /-- lines 346-347: the loop looks for `sp.uuid` -/
  | look (u : Nat)
  /-- line 349 during the map write -/
  | deleting (u : Nat)
  /-- line 350 -/
  | closing (u : Nat) (at_ : CloseAt)
  /-- line 353 -/
  | unlock (u : Nat)
deriving DecidableEq, Repr, Inhabited

/-- The package a resend goroutine will send: captured directly, or the variable of a loop. -/
inductive Ref where
  | direct (u : Nat)
  | loopVar (loop : Nat)
deriving DecidableEq, Repr, Inhabited

/-- Resend goroutine, connection.go 230-233. -/
inductive ResendAt where
  | absent
  /-- line 231 -/
  | sleep (r : Ref)
  /-- line 232: blocked in `conn.send <- c` -/
  | sending (u : Nat)
deriving DecidableEq, Repr, Inhabited

/-- A scan of the in-flight table for a control byte, connection.go 213-238: the control byte, the
decoded message, the entries the iteration still has to produce, the entries it has produced, and
the identity of the loop. -/
structure Scan where
  byte : UInt8
  msg : Option Message
  must : List Nat
  seen : List Nat
  loop : Nat
deriving DecidableEq, Repr, Inhabited

/-- The matching of a frame, connection.go 253-271: the buffer, the decoded message, the entries not
visited yet; `orig` is a ghost: the table when the lock was taken. -/
structure Scope where
  buf : Slice
  msg : Option Message
  todo : List Nat
  orig : List Nat
deriving DecidableEq, Repr, Inhabited

/-- `Connect` / `Reader`, connection.go 116-144 and 183-291. -/
inductive ReaderAt where
  /-- no open port: before the first `Connect`, or after a read error -/
  | down
  /-- line 190: `Read` -/
  | read
  /-- line 207: head of the inner loop -/
  | loop
  /-- executing the actions of one iteration (see `Verif.Model.iter`) -/
  | exec
  /-- line 214: head of the range loop -/
  | scanNext (c : Scan)
  /-- line 215: `conn.RLock()` -/
  | scanLock (c : Scan) (u : Nat)
  /-- line 216: `c.uuid == conn.lastCommand` -/
  | scanTest (c : Scan) (u : Nat)
  /-- lines 217-220 -/
  | scanSend (c : Scan) (u : Nat)
  /-- line 222: `msg.IsNAK()` -/
  | scanNak (c : Scan) (u : Nat)
  /-- line 224 during the map write -/
  | scanDeleting (c : Scan) (u : Nat)
  /-- line 225 -/
  | scanClosing (c : Scan) (u : Nat) (at_ : CloseAt)
  /-- line 228: `msg.IsCAN()` -/
  | scanCan (c : Scan) (u : Nat)
  /-- line 236 -/
  | scanUnlock (c : Scan) (u : Nat)
  /-- line 253: `conn.Lock()` -/
  | frameLock (buf : Slice) (msg : Option Message)
  /-- line 254: head of the range loop -/
  | frameNext (c : Scope)
  /-- line 255 -/
  | frameMatch (c : Scope) (u : Nat)
  /-- line 260: `c.IsOpen()` -/
  | frameOpen (c : Scope) (u : Nat)
  /-- lines 261-265 -/
  | frameSend (c : Scope) (u : Nat)
  /-- line 267 -/
  | frameClosing (c : Scope) (u : Nat) (at_ : CloseAt)
  /-- line 269, before the map write -/
  | frameDelete (c : Scope) (u : Nat)
  /-- line 269, during the map write -/
  | frameDeleting (c : Scope) (u : Nat)
  /-- line 271 -/
  | frameUnlock (c : Scope)
deriving DecidableEq, Repr, Inhabited

/-- Owner of the connection's mutex. -/
inductive Owner where
  | writer (w : Nat)
  | timer (t : Nat)
  /-- the reader, by `RLock` -/
  | scan
  /-- the reader, by `Lock` -/
  | frame
deriving DecidableEq, Repr, Inhabited

/-- The port: `conn.readWriteCloser`. -/
inductive Port where
  /-- nil, or an interface holding a nil pointer: before the first `Open`, after a failed one -/
  | nil
  /-- closed after a read error: writes fail without effect -/
  | closed
  | up
deriving DecidableEq, Repr, Inhabited

/-- Ghost events. -/
inductive Ev where
  /-- request `u` was submitted by a caller, with these arguments -/
  | submit (u : Nat) (data : List UInt8) (kind : Kind) (timeout : Bool) (er : UInt8)
  /-- a resend goroutine offers request `u` again -/
  | resend (u : Nat)
  /-- writer `w` handed the message of request `u` to the open port -/
  | cmd (w u : Nat) (message : List UInt8)
  /-- writer `w` called `Write` on a closed port: nothing reaches the wire -/
  | lost (w u : Nat)
  /-- the result goroutine of writer `w` received control byte `b` while `u` was its command -/
  | result (w u : Nat) (b : UInt8)
  /-- the result goroutine of writer `w` gave up after one second -/
  | sendTimeout (w u : Nat)
  /-- the scan loop `loop` produced request `u` -/
  | visit (loop u : Nat)
  /-- the reader spawned a resend goroutine while visiting request `u` in scan loop `loop` -/
  | spawnResend (loop u : Nat)
  /-- the reader wrote an ACK -/
  | ack
  /-- the reader handed a report to the callback -/
  | callback (node : UInt8) (r : Report)
  /-- the reader finished matching a frame -/
  | frame (buf : Slice) (msg : Option Message)
  /-- a caller's reply goroutine forwarded a report -/
  | forward (u : Nat) (r : Report)
  /-- the channel of request `u` was closed by a timeout worker / a NAK / a frame -/
  | closed (u : Nat)
  /-- a message was handed over the channel of request `u` -/
  | deliver (u : Nat)
deriving DecidableEq, Repr, Inhabited

/-- The global state. -/
structure St where
  /-- number of submitted requests; they are numbered from 0 -/
  nReq : Nat
  req : Nat → Req
  client : Nat → Client
  /-- `pkg.returnChan != nil` -/
  field : Nat → Bool
  /-- the channel made for the request has been closed -/
  closed : Nat → Bool
  /-- messages delivered, with the buffer they were decoded from (newest first) -/
  got : Nat → List (Slice × Option Message)
  /-- keys of `conn.inFlight`, connection.go 21; the value under a key is always that request -/
  inFlight : List Nat
  mapBusy : Bool
  lastCommand : Option Nat
  lock : Option Owner
  nWriter : Nat
  writer : Nat → WriterAt
  result : Nat → ResultAt
  nTimer : Nat
  timer : Nat → TimerAt
  nResend : Nat
  resend : Nat → ResendAt
  nLoop : Nat
  loopVar : Nat → Nat
  reader : ReaderAt
  acts : List Act
  buf : Slice
  port : Port
  crashed : Option Panic
  hist : List Ev

/-- `NewConnection`, connection.go 68-76. -/
def init : St where
  nReq := 0
  req := fun _ => default
  client := fun _ => .done
  field := fun _ => false
  closed := fun _ => false
  got := fun _ => []
  inFlight := []
  mapBusy := false
  lastCommand := none
  lock := none
  nWriter := 0
  writer := fun _ => .absent
  result := fun _ => .absent
  nTimer := 0
  timer := fun _ => .absent
  nResend := 0
  resend := fun _ => .absent
  nLoop := 0
  loopVar := fun _ => 0
  reader := .down
  acts := []
  buf := ⟨[], []⟩
  port := .nil
  crashed := none
  hist := []

/-- Function update. -/
def upd {α : Type} (f : Nat → α) (i : Nat) (v : α) : Nat → α := fun j => if j = i then v else f j

/-- Steps of a caller. -/
inductive ClientOp where
  /-- line 90 / 101: read `pkg.returnChan` -/
  | readField
  /-- lines 101-109 (`waitReport`): handle the received message -/
  | handle
  /-- `withTimeout`: the caller listens again -/
  | again
  /-- the channel is seen closed -/
  | seeClosed
deriving DecidableEq, Repr

/-- Who a writer takes the next package from. -/
inductive Src where
  | client (u : Nat)
  | resend (i : Nat)
deriving DecidableEq, Repr

/-- Steps of the reader that need a choice. -/
inductive ReaderOp where
  /-- the step is determined by the state -/
  | go
  /-- `Read` returns data -/
  | read (r : Read)
  /-- `Read` fails -/
  | fail
  /-- the map iterator produces entry `u` -/
  | pick (u : Nat)
  /-- the map iterator is exhausted -/
  | stop
  /-- line 218: result goroutine of writer `w` receives the control byte -/
  | sendTo (w : Nat)
  /-- the `time.After` case of a select -/
  | skip
  /-- line 262: the caller receives the message -/
  | deliver
deriving DecidableEq, Repr

/-- Which goroutine moves. -/
inductive Label where
  /-- a caller submits a request (data as encoded, kind, timeout ≠ 0, expected report) -/
  | submit (data : List UInt8) (kind : Kind) (timeout : Bool) (er : UInt8)
  | client (u : Nat) (op : ClientOp)
  /-- a writer receives from `conn.send` -/
  | take (w : Nat) (src : Src)
  | writer (w : Nat)
  /-- the result goroutine of writer `w` times out -/
  | resultTimeout (w : Nat)
  | timer (t : Nat)
  | resend (i : Nat)
  /-- `Connect` with `Open` succeeding / failing -/
  | connect (ok : Bool)
  | reader (op : ReaderOp)
deriving DecidableEq, Repr

/-- The process dies. -/
def St.crash (s : St) (p : Panic) : St := { s with crashed := some p }

/-- `Write`, `WriteWithTimeout`, `WriteAndWaitForReport` up to the send, connection.go 78-99.  `Write`
never sets a timeout. -/
def submit (s : St) (data : List UInt8) (kind : Kind) (timeout : Bool) (er : UInt8) : Option St :=
  match newSendPackage data (if kind = .waitReport then er else 0) with
  | .error p => some (s.crash p)
  | .ok pkg =>
    some { s with
      nReq := s.nReq + 1
      req := upd s.req s.nReq ⟨pkg, kind, timeout && kind != .write⟩
      client := upd s.client s.nReq .sending
      field := upd s.field s.nReq (kind != .write)
      hist := .submit s.nReq data kind timeout er :: s.hist }

/-- Steps of a caller after its request was taken, connection.go 90 and 101-111. -/
def clientStep (s : St) (u : Nat) : ClientOp → Option St
  | .readField =>
    if s.client u = .handed then
      some { s with client := upd s.client u (if s.field u then .has else .nilChan) }
    else none
  | .handle =>
    if s.client u = .received ∧ (s.req u).kind = .waitReport then
      match s.got u with
      | (_, some m) :: _ =>
        match m.data with
        | .ach f => some { s with client := upd s.client u .done, hist := .forward u f.report :: s.hist }
        | _ => some { s with client := upd s.client u .has }
      | (_, none) :: _ => some (s.crash .nilDeref)
      | [] => none
    else none
  | .again =>
    if s.client u = .received ∧ (s.req u).kind = .withTimeout then
      some { s with client := upd s.client u .has }
    else none
  | .seeClosed =>
    if s.client u = .has ∧ s.closed u = true then
      some { s with client := upd s.client u .done }
    else none

/-- `pkg := <-conn.send`, connection.go 150: rendezvous with a blocked sender. -/
def takeStep (s : St) (w : Nat) (src : Src) : Option St :=
  if s.writer w = .idle then
    match src with
    | .client u =>
      if s.client u = .sending then
        some { s with
          writer := upd s.writer w (.lock u)
          client := upd s.client u (if (s.req u).hasChan then .handed else .done) }
      else none
    | .resend i =>
      match s.resend i with
      | .sending u =>
        some { s with writer := upd s.writer w (.lock u), resend := upd s.resend i .absent }
      | _ => none
  else none

/-- `conn.inFlight[pkg.uuid] = pkg` on the key list. -/
def insertKey (l : List Nat) (u : Nat) : List Nat := if u ∈ l then l else l ++ [u]

/-- A key removed from the map is no longer promised to, nor remembered by, a running iteration
(it may be produced again if it is inserted again). -/
def ReaderAt.forget (r : ReaderAt) (u : Nat) : ReaderAt :=
  let f (c : Scan) : Scan := { c with must := c.must.filter (· != u), seen := c.seen.filter (· != u) }
  match r with
  | .scanNext c => .scanNext (f c)
  | .scanLock c v => .scanLock (f c) v
  | .scanTest c v => .scanTest (f c) v
  | .scanSend c v => .scanSend (f c) v
  | .scanNak c v => .scanNak (f c) v
  | .scanDeleting c v => .scanDeleting (f c) v
  | .scanClosing c v a => .scanClosing (f c) v a
  | .scanCan c v => .scanCan (f c) v
  | .scanUnlock c v => .scanUnlock (f c) v
  | r => r

/-- `Writer` after receiving a package, connection.go 151-178. -/
def writerStep (s : St) (w : Nat) : Option St :=
  match s.writer w with
  | .lock u =>
    if s.lock = none then
      some { s with lock := some (.writer w), writer := upd s.writer w (.clear u) }
    else none
  | .clear u => some { s with lastCommand := none, writer := upd s.writer w (.insert u) }
  | .insert u =>
    if s.mapBusy then some (s.crash .mapRace)
    else some { s with mapBusy := true, writer := upd s.writer w (.inserting u) }
  | .inserting u =>
    some { s with mapBusy := false, inFlight := insertKey s.inFlight u
                  writer := upd s.writer w (.setLast u) }
  | .setLast u => some { s with lastCommand := some u, writer := upd s.writer w (.timer u) }
  | .timer u =>
    if (s.req u).timeout then
      some { s with nTimer := s.nTimer + 1, timer := upd s.timer s.nTimer (.sleep u)
                    writer := upd s.writer w (.spawn u) }
    else some { s with writer := upd s.writer w (.spawn u) }
  | .spawn u =>
    some { s with result := upd s.result w (.waiting u), writer := upd s.writer w (.write u) }
  | .write u =>
    match s.port with
    | .nil => some (s.crash .nilDeref)
    | .closed => some { s with writer := upd s.writer w (.unlock u), hist := .lost w u :: s.hist }
    | .up =>
      some { s with writer := upd s.writer w (.unlock u)
                    hist := .cmd w u (s.req u).pkg.message :: s.hist }
  | .unlock u => some { s with lock := none, writer := upd s.writer w (.await u) }
  | .await u =>
    if s.result w = .finished then
      some { s with result := upd s.result w .absent, writer := upd s.writer w (.reset u) }
    else none
  | .reset _ => some { s with lastCommand := none, writer := upd s.writer w .idle }
  | _ => none

/-- connection.go 167-169 -/
def resultTimeoutStep (s : St) (w : Nat) : Option St :=
  match s.result w with
  | .waiting u =>
    some { s with result := upd s.result w .finished, hist := .sendTimeout w u :: s.hist }
  | _ => none

/-- One line of `Close` on request `u`, connection.go 47-59: the state after it, and the next line
(`none`: returned). -/
def closeStep (s : St) (u : Nat) : CloseAt → St × Option CloseAt
  | .check => if s.field u then (s, some .close) else (s, none)
  | .close =>
    if s.field u = true ∧ s.closed u = false then
      ({ s with closed := upd s.closed u true, hist := .closed u :: s.hist }, some .clear)
    else (s.crash .close, none)
  | .clear => ({ s with field := upd s.field u false }, none)

/-- `timeoutWorker`, connection.go 342-354. -/
def timerStep (s : St) (t : Nat) : Option St :=
  match s.timer t with
  | .sleep u =>
    if s.lock = none then
      some { s with lock := some (.timer t), timer := upd s.timer t (.look u) }
    else none
  | .look u =>
    if s.mapBusy then some (s.crash .mapRace)
    else if u ∈ s.inFlight then
      some { s with mapBusy := true, timer := upd s.timer t (.deleting u) }
    else some { s with timer := upd s.timer t (.unlock u) }
  | .deleting u =>
    some { s with mapBusy := false, inFlight := s.inFlight.filter (· != u)
                  reader := s.reader.forget u
                  timer := upd s.timer t (.closing u .check) }
  | .closing u a =>
    let (s', nx) := closeStep s u a
    some { s' with timer := upd s'.timer t (match nx with
      | some a' => .closing u a'
      | none => .unlock u) }
  | .unlock _ => some { s with lock := none, timer := upd s.timer t .absent }
  | .absent => none

/-- Resend goroutine, connection.go 230-233: after the pause the captured variable is read. -/
def resendStep (s : St) (i : Nat) : Option St :=
  match s.resend i with
  | .sleep r =>
    let u := match r with
      | .direct u => u
      | .loopVar l => s.loopVar l
    some { s with resend := upd s.resend i (.sending u), hist := .resend u :: s.hist }
  | _ => none

/-- `Connect`, connection.go 116-144 (the reader goroutine of gozwave.go 37-43). -/
def connectStep (s : St) (ok : Bool) : Option St :=
  if s.reader = .down then
    if ok then
      some { s with port := .up, reader := .read, buf := ⟨[], []⟩
                    nWriter := s.nWriter + 1, writer := upd s.writer s.nWriter .idle }
    else some { s with port := .nil }
  else none

/-- `Reader`, connection.go 183-291. The range loop over the table (214) runs without the lock. Go's check for a
concurrent write is made when the loop asks for the next entry; a loop over a table that is empty ends at once and makes
no check (`runtime.mapiterinit`). -/
def readerStep (lv : LoopVars) (s : St) (op : ReaderOp) : Option St :=
  match s.reader, op with
  | .read, .read r => some { s with buf := appendRead s.buf r, reader := .loop }
  | .read, .fail => some { s with port := .closed, reader := .down }
  | .loop, .go =>
    if s.buf.len = 0 then some { s with reader := .read }
    else
      match iter s.buf with
      | .error p => some (s.crash p)
      | .ok (.wait b) => some { s with buf := b, reader := .read }
      | .ok (.drop b) => some { s with buf := b }
      | .ok (.done as rest) => some { s with buf := rest, acts := as, reader := .exec }
  | .exec, .go =>
    match s.acts with
    | [] => some { s with reader := .loop }
    | .ctrl b msg :: as =>
      some { s with acts := as, nLoop := s.nLoop + 1
                    reader := .scanNext ⟨b, msg, s.inFlight, [], s.nLoop⟩ }
    | .frame seen _ msg :: as => some { s with acts := as, reader := .frameLock seen msg }
    | .callback n r :: as => some { s with acts := as, hist := .callback n r :: s.hist }
    | .ack :: as => some { s with acts := as, hist := .ack :: s.hist }
  | .scanNext c, .pick u =>
    if c.must = [] ∧ c.seen = [] then none
    else if s.mapBusy then some (s.crash .mapRace)
    else if u ∈ s.inFlight ∧ u ∉ c.seen then
      some { s with loopVar := upd s.loopVar c.loop u, hist := .visit c.loop u :: s.hist
                    reader := .scanLock { c with must := c.must.filter (· != u), seen := u :: c.seen } u }
    else none
  | .scanNext c, .stop =>
    if s.mapBusy ∧ ¬ (c.must = [] ∧ c.seen = []) then some (s.crash .mapRace)
    else if c.must = [] then some { s with reader := .exec }
    else none
  | .scanLock c u, .go =>
    if s.lock = none then some { s with lock := some .scan, reader := .scanTest c u } else none
  | .scanTest c u, .go =>
    if s.lastCommand = some u then some { s with reader := .scanSend c u }
    else some { s with reader := .scanUnlock c u }
  | .scanSend c u, .sendTo w =>
    match s.result w with
    | .waiting v =>
      some { s with result := upd s.result w .finished, reader := .scanNak c u
                    hist := .result w v c.byte :: s.hist }
    | _ => none
  | .scanSend c u, .skip => some { s with reader := .scanNak c u }
  | .scanNak c u, .go =>
    match c.msg with
    | none => some (s.crash .nilDeref)
    | some m =>
      if m.isNAK then
        if s.mapBusy then some (s.crash .mapRace)
        else some { s with mapBusy := true, reader := .scanDeleting c u }
      else some { s with reader := .scanCan c u }
  | .scanDeleting c u, .go =>
    some { s with mapBusy := false, inFlight := s.inFlight.filter (· != u)
                  reader := (ReaderAt.scanClosing c u .check).forget u }
  | .scanClosing c u a, .go =>
    let (s', nx) := closeStep s u a
    some { s' with reader := match nx with
      | some a' => .scanClosing c u a'
      | none => .scanCan c u }
  | .scanCan c u, .go =>
    match c.msg with
    | none => some (s.crash .nilDeref)
    | some m =>
      if m.isCAN then
        some { s with nResend := s.nResend + 1, hist := .spawnResend c.loop u :: s.hist
                      resend := upd s.resend s.nResend (.sleep (match lv with
                        | .perLoop => .loopVar c.loop
                        | .perIteration => .direct u))
                      reader := .scanUnlock c u }
      else some { s with reader := .scanUnlock c u }
  | .scanUnlock c _, .go => some { s with lock := none, reader := .scanNext c }
  | .frameLock seen msg, .go =>
    if s.lock = none then
      some { s with lock := some .frame, reader := .frameNext ⟨seen, msg, s.inFlight, s.inFlight⟩ }
    else none
  | .frameNext c, .pick u =>
    if s.mapBusy then some (s.crash .mapRace)
    else if u ∈ c.todo then
      some { s with reader := .frameMatch { c with todo := c.todo.filter (· != u) } u }
    else none
  | .frameNext c, .stop =>
    if s.mapBusy then some (s.crash .mapRace)
    else if c.todo = [] then some { s with reader := .frameUnlock c }
    else none
  | .frameMatch c u, .go =>
    match (s.req u).pkg.match_ c.buf.vis with
    | .error p => some (s.crash p)
    | .ok true => some { s with reader := .frameOpen c u }
    | .ok false => some { s with reader := .frameNext c }
  | .frameOpen c u, .go =>
    if s.field u then some { s with reader := .frameSend c u }
    else some { s with reader := .frameDelete c u }
  | .frameSend c u, .deliver =>
    if s.field u = true ∧ s.closed u = true then some (s.crash .send)
    else if s.field u = true ∧ s.client u = .has then
      some { s with got := upd s.got u ((c.buf, c.msg) :: s.got u)
                    client := upd s.client u .received
                    reader := .frameClosing c u .check
                    hist := .deliver u :: s.hist }
    else none
  | .frameSend c u, .skip => some { s with reader := .frameClosing c u .check }
  | .frameClosing c u a, .go =>
    let (s', nx) := closeStep s u a
    some { s' with reader := match nx with
      | some a' => .frameClosing c u a'
      | none => .frameDelete c u }
  | .frameDelete c u, .go =>
    if s.mapBusy then some (s.crash .mapRace)
    else some { s with mapBusy := true, reader := .frameDeleting c u }
  | .frameDeleting c u, .go =>
    some { s with mapBusy := false, inFlight := s.inFlight.filter (· != u)
                  reader := .frameNext c }
  | .frameUnlock c, .go =>
    some { s with lock := none, reader := .exec, hist := .frame c.buf c.msg :: s.hist }
  | _, _ => none

/-- One step of the whole system; a crashed process makes no more steps. -/
def step (lv : LoopVars) (s : St) (l : Label) : Option St :=
  if s.crashed.isSome then none
  else
    match l with
    | .submit data kind timeout er => submit s data kind timeout er
    | .client u op => clientStep s u op
    | .take w src => takeStep s w src
    | .writer w => writerStep s w
    | .resultTimeout w => resultTimeoutStep s w
    | .timer t => timerStep s t
    | .resend i => resendStep s i
    | .connect ok => connectStep s ok
    | .reader op => readerStep lv s op

/-- An execution: the state after a sequence of steps. -/
def run (lv : LoopVars) (s : St) : List Label → Option St
  | [] => some s
  | l :: ls => (step lv s l).bind fun s' => run lv s' ls

/-- States that some execution from a fresh connection reaches. -/
def Reachable (lv : LoopVars) (s : St) : Prop := ∃ ls, run lv init ls = some s

end Verif.Model.Conn
