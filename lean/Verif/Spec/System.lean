import Verif.Model.System
import Verif.Spec.ConnReaderFair
import Verif.Spec.CtlFair

/-
Executions of the whole process.
-/

namespace Verif.Spec

open Verif.Model Verif.Model.Conn

/-- The process is gone. -/
def Sys.dead (s : Sys) : Prop := s.conn.crashed ≠ none ∨ s.ctl.crashed ≠ none

/-- Steps of the connection. -/
def onConn (A : Label → Prop) : SLabel → Prop
  | .conn l => A l
  | _ => False

/-- Steps of the controller. -/
def onCtl (A : CLabel → Prop) : SLabel → Prop
  | .ctl l => A l
  | _ => False

/-- The assumptions: no goroutine of the connection or of the controller is passed over for ever, and time goes on
unless the process dies. (See `FairConn` and `FairCtl`.) -/
structure FairSys {lv : LoopVars} {db : DB} (e : Exec (sysStep lv db)) : Prop where
  writer : ∀ w, Fairly e (onConn fun l => l = .writer w)
  timer : ∀ t, Fairly e (onConn fun l => l = .timer t)
  reader : Fairly e (onConn fun l => isReader l = true ∧ external l = false)
  result : ∀ w, Fairly e (onConn fun l => l = .resultTimeout w)
  take : ∀ u, Fairly e (onConn fun l => ∃ w, l = .take w (.client u))
  client : ∀ u, Fairly e (onConn fun l => ∃ op, l = .client u op)
  disc : Fairly e (onCtl fun l => ∃ a, l = .disc a)
  deliver : ∀ k, Fairly e (onCtl fun l => l = .deliver k)
  proc : ∀ ref j, Fairly e (onCtl fun l => l = .node ref (.proc j))
  saver : Fairly e (onCtl fun l => ∃ op, l = .saver op)
  time : ∀ t n, ∃ m, n ≤ m ∧ (t ≤ (e.st m).ctl.now ∨ Sys.dead (e.st m))

/-- The steps of the connection before moment `n`. -/
def connSteps {lv : LoopVars} {db : DB} (e : Exec (sysStep lv db)) (n : Nat) : List Label :=
  (List.range n).filterMap fun i => match e.lab i with
    | some (.conn l) => some l
    | _ => none

/-- From moment `n` on no request, new or repeated, is handed to a writer. -/
def NoMoreRequests {lv : LoopVars} {db : DB} (e : Exec (sysStep lv db)) (n : Nat) : Prop :=
  ∀ m, n ≤ m → ∀ w src, e.lab m ≠ some (.conn (.take w src))

/-- From moment `n` on nothing is read and the port is not opened again. -/
def NoMoreReads {lv : LoopVars} {db : DB} (e : Exec (sysStep lv db)) (n : Nat) : Prop :=
  ∀ m, n ≤ m → (∀ r, e.lab m ≠ some (.conn (.reader (.read r)))) ∧ e.lab m ≠ some (.conn (.connect true))

end Verif.Spec
