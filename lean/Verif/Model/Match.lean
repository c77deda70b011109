import Verif.Model.Reader

/-
connection.go 293-366: building a request and matching received data against it.
-/

namespace Verif.Model

open Verif.Go

/-- The parts of `sendPackage` (connection.go 31-45) that matter for matching and sending.  The uuid
and the return channel are handled by `Verif.Model.Conn`. -/
structure Pkg where
  message : List UInt8
  function : UInt8
  node : UInt8
  commandclass : UInt8
  expectedReport : UInt8
deriving DecidableEq, Repr, Inhabited

/-- `newSendPackage`, connection.go 293-310, with the `expectedReport` set by
`WriteAndWaitForReport` (line 97; 0 for the other two writers). -/
def newSendPackage (data : List UInt8) (er : UInt8) : Res Pkg := do
  let message ← compileMessage data
  return {
    message := message
    function := if data.length > 0 then data.getD 0 0 else 0
    node := if data.length > 1 then data.getD 1 0 else 0
    commandclass := if data.length > 4 then data.getD 3 0 else 0
    expectedReport := er }

/-- `MatchByteAt`, connection.go 356-366; note `<` where `<=` would be needed. -/
def matchByteAt (message : List UInt8) (b : UInt8) (position : Nat) : Res Bool :=
  if b = 0 then .ok true
  else if message.length < position then .ok false
  else
    match message[position]? with
    | some x => .ok (x == b)
    | none => .error .index

/-- The argument of the log lines 317, 327, 331, 335: `incomming[position]`. -/
def logIndex (message : List UInt8) (position : Nat) : Res Unit :=
  match message[position]? with
  | some _ => .ok ()
  | none => .error .index

/-- The function test of `Match`, connection.go 316-319: `&&` evaluates lazily. -/
def Pkg.fnMatch (c : Pkg) (incomming : List UInt8) : Res Bool :=
  (matchByteAt incomming c.function 3).bind fun fnOk =>
    if fnOk = true then .ok true
    else if c.function = fnSendData then matchByteAt incomming fnApplicationCommandHandler 3
    else .ok false

/-- One test of `Match` with its early return: `if !ok { log incomming[pos]; return false }`; the
arguments of the log call are evaluated whatever the log level. -/
def orReject (incomming : List UInt8) (pos : Nat) (ok : Res Bool) (k : Res Bool) : Res Bool :=
  ok.bind fun b =>
    if b = true then k else (logIndex incomming pos).bind fun _ => .ok false

/-- `Match`, connection.go 312-340. -/
def Pkg.match_ (c : Pkg) (incomming : List UInt8) : Res Bool :=
  orReject incomming 3 (c.fnMatch incomming) <|
  if c.function = fnGetNodeProtocolInfo then .ok true else
  orReject incomming 5 (matchByteAt incomming c.node 5) <|
  orReject incomming 7 (matchByteAt incomming c.commandclass 7) <|
  orReject incomming 8 (matchByteAt incomming c.expectedReport 8) <|
  .ok true

end Verif.Model
