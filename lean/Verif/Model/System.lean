import Verif.Model.Conn
import Verif.Model.Controller

/-
gozwave.go: the connection and the controller working together.

The reports the reader hands to the callback are the reports that reach the controller (gozwave.go 28,
connection.go 277). The other direction, the requests of the discovery, of the identifications and of the
user, is left open: the connection machine gets any requests from anywhere, and the controller machine gets
any answers. What is proved holds for all of them, so also for the right ones.

When and with what `connected` delivers is studied in Verif.Model.Connect; here it may deliver an error at any
time, and nil at any time after the port was opened.
-/

namespace Verif.Model

open Verif.Go

/-- A process that called `Connect`, gozwave.go 17-54. -/
structure Sys where
  conn : Conn.St
  ctl : CSt
  /-- gozwave.go 45-48: whether `Connect` returned a controller; `none` as long as it waits -/
  result : Option Bool

/-- A step of the process. -/
inductive SLabel where
  | conn (l : Conn.Label)
  | ctl (l : CLabel)
  /-- gozwave.go 45: `err = <-connected` receives nil (`true`) or an error -/
  | connected (ok : Bool)
deriving DecidableEq, Repr

/-- What the reader hands to the callback in a step, connection.go 277: `go conn.reportCallback(…)`, which is
`c.DeliverReportToNode`, gozwave.go 28. -/
def handed (s : Conn.St) (l : Conn.Label) : Option (UInt8 × Report) :=
  match l, s.reader, s.acts with
  | .reader .go, .exec, .callback n r :: _ => some (n, r)
  | _, _, _ => none

/-- Which steps the controller makes on its own: reports come from the connection only; `getNodes` and
`saveDebouncer` are started when `connected` delivered nil, gozwave.go 45-51. -/
def ownStep (result : Option Bool) (l : CLabel) : Bool :=
  match l with
  | .arrive _ _ => false
  | .startDisc | .startSaver => result = some true
  | _ => true

/-- One step of the process; if a goroutine panics all are gone. -/
def sysStep (lv : Conn.LoopVars) (db : DB) (s : Sys) (l : SLabel) : Option Sys :=
  if s.conn.crashed.isSome || s.ctl.crashed.isSome then none
  else
    match l with
    | .conn l =>
      (Conn.step lv s.conn l).bind fun c =>
        match handed s.conn l with
        | some (id, r) => (cStep db s.ctl (.arrive id r)).map fun t => { s with conn := c, ctl := t }
        | none => some { s with conn := c }
    | .ctl l => if ownStep s.result l then (cStep db s.ctl l).map fun t => { s with ctl := t } else none
    | .connected ok =>
      if s.result = none ∧ (ok = true → 0 < s.conn.nWriter) then some { s with result := some ok } else none

end Verif.Model
