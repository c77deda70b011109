import Verif.Model.System

/-
The process with both directions joined: what the discovery and the identifications send is what the connection
gets, and what they are answered is what the connection hands them.

A goroutine that calls `Write`, `WriteWithTimeout` or `WriteAndWaitForReport` makes two steps: the step of the
controller machine (`Verif.Model.Controller`), after which `want` holds its request, and the step `ask`, which
submits it. Requests of the user are submitted by the connection machine on its own, as in `Verif.Model.System`.

A caller of `WriteWithTimeout` in the connection machine may listen again after its message; the goroutines here
receive once (controller.go 47, protocol_info.go 30). Listening again changes nothing for them: at most one message
comes (C33), and what was heard is the first.
-/

namespace Verif.Model

open Verif.Go

/-- The goroutines that send requests: `getNodes`, and identification `i` of node `ref`. -/
inductive Who where
  | disc
  | ident (ref i : Nat)
deriving DecidableEq, Repr

/-- A request: the bytes, the function called, and the report waited for. -/
structure Ask where
  data : List UInt8
  kind : Conn.Kind
  er : UInt8
deriving DecidableEq, Repr

/-- The process. -/
structure Whole where
  sys : Sys
  /-- what a goroutine is about to submit -/
  want : Who → Option Ask
  /-- the request a goroutine has submitted last and not seen answered -/
  req : Who → Option Nat

/-- A step of the process. -/
inductive WLabel where
  | sys (l : SLabel)
  /-- a goroutine submits its request -/
  | ask (who : Who)
deriving DecidableEq, Repr

/-- Function update. -/
def updW {α : Type} (f : Who → α) (w : Who) (v : α) : Who → α := fun x => if x = w then v else f x

/-- The request of `getNodes`, controller.go 41: `WriteWithTimeout(serialapi.NewRaw([]byte{0x02}), time.Second*5)` -/
def discAsk : Ask := ⟨serialRawEncode [0x02], .withTimeout, 0⟩

/-- How an identification that is now at `p` has called the connection, nodes/protocol_info.go 25,
manufacurer_specific.go 26, request_endpoints.go 42, request_states.go 25, 34 (`Write`), 43. -/
def askKind (p : IdentAt) : Conn.Kind × UInt8 :=
  match p with
  | .info => (.withTimeout, 0)
  | .reply .manufacturer => (.waitReport, 0x05)
  | .reply .endpoints => (.waitReport, 0x08)
  | .sensor _ => (.waitReport, 0x02)
  | _ => (.write, 0)

/-- What identification `i` hands to the connection in the step from `n` to `n'`: the bytes are those that the
model of the node records. -/
def handsOver (n n' : NSt) (i : Nat) : Option Ask :=
  if n.hist.length < n'.hist.length then
    match n'.hist with
    | .sent _ _ data :: _ => some ⟨data, (askKind (n'.ident i)).1, (askKind (n'.ident i)).2⟩
    | _ => none
  else none

/-- An identification waits for an answer. -/
def awaits (p : IdentAt) : Bool :=
  match p with
  | .info | .reply _ | .sensor _ => true
  | _ => false

/-- What a goroutine receives from the channel of `WriteWithTimeout`: a message, or nil because it is nil or the
channel is closed; nothing yet otherwise. -/
def heard (c : Conn.St) (u : Nat) : Option (Option Message) :=
  match c.got u with
  | (_, m) :: _ => some m
  | [] => if c.client u = .done then some none else none

/-- What a goroutine receives from the channel of `WriteAndWaitForReport`, connection.go 101-111: the report its
reply goroutine has forwarded, or nil because that goroutine has closed the channel. -/
def heardReport (c : Conn.St) (u : Nat) : Option (Option Report) :=
  if c.client u = .done then
    match c.got u with
    | (_, some m) :: _ =>
      match m.data with
      | .ach f => some (some f.report)
      | _ => some none
    | _ => some none
  else none

/-- controller.go 49-71 -/
def discAnswer : Option Message → DiscAnswer
  | none => .nothing
  | some m =>
    match m.data with
    | .nodes bm => .nodes bm
    | _ => .other

/-- nodes/protocol_info.go 34-43 -/
def infoAnswer : Option Message → Answer
  | none => .nothing
  | some m =>
    match m.data with
    | .info p => .info p
    | _ => .other

/-- nodes/manufacurer_specific.go 33-38, request_endpoints.go 47-74 -/
def reportAnswer : Option Report → Answer
  | none => .nothing
  | some r => .report r

/-- What an identification at `p` is answered to request `u`. -/
def identAnswer (c : Conn.St) (p : IdentAt) (u : Nat) : Option Answer :=
  match p with
  | .info => (heard c u).map infoAnswer
  | _ => (heardReport c u).map reportAnswer

/-- A goroutine is held up: it has not submitted its request, or nobody has taken it yet (connection.go 80, 88, 99:
`conn.send <- pkg`). -/
def Whole.busy (w : Whole) (who : Who) : Bool :=
  (w.want who).isSome ||
    match w.req who with
    | some u => w.sys.conn.client u = .sending
    | none => false

/-- Whether identification `i` of node `ref` may go on with answer `a`. -/
def Whole.mayIdent (w : Whole) (ref i : Nat) (a : Answer) : Bool :=
  !w.busy (.ident ref i) &&
    (!awaits ((w.sys.ctl.heap ref).ident i) ||
      match w.req (.ident ref i) with
      | some u => identAnswer w.sys.conn ((w.sys.ctl.heap ref).ident i) u = some a
      | none => false)

/-- Whether `getNodes` may go on with answer `a`. -/
def Whole.mayDisc (w : Whole) (a : DiscAnswer) : Bool :=
  w.sys.ctl.disc ≠ .wait ||
    !w.busy .disc &&
      match w.req .disc with
      | some u => (heard w.sys.conn u).map discAnswer = some a
      | none => false

/-- What the controller's step changes of the requests. -/
def Whole.after (w : Whole) (l : SLabel) (s : Sys) : Whole :=
  match l with
  | .ctl .startDisc => { w with sys := s, want := updW w.want .disc (some discAsk) }
  | .ctl (.node ref (.ident i _)) =>
    { sys := s
      want := updW w.want (.ident ref i) (handsOver (w.sys.ctl.heap ref) (s.ctl.heap ref) i)
      req := updW w.req (.ident ref i) none }
  | _ => { w with sys := s }

/-- Whether the controller may make the step. -/
def Whole.may (w : Whole) (l : SLabel) : Bool :=
  match l with
  | .ctl (.disc a) => w.mayDisc a
  | .ctl (.node ref (.ident i a)) => w.mayIdent ref i a
  | _ => true

/-- One step of the process. -/
def wStep (lv : Conn.LoopVars) (db : DB) (w : Whole) : WLabel → Option Whole
  | .sys l => if w.may l then (sysStep lv db w.sys l).map (w.after l) else none
  | .ask who =>
    match w.want who with
    | none => none
    | some a =>
      (sysStep lv db w.sys (.conn (.submit a.data a.kind (a.kind != .write) a.er))).map fun s =>
        { sys := s, want := updW w.want who none, req := updW w.req who (some w.sys.conn.nReq) }

end Verif.Model
