import Verif.Model.Conn
import Verif.Spec.Fair

/-
Fair executions of a connection.
-/

namespace Verif.Spec

open Verif.Model Verif.Model.Conn

/-- A step of the reader goroutine. -/
def isReader : Label → Bool
  | .reader _ => true
  | _ => false

/-- The reader reads from the port, which may take for ever. -/
def external : Label → Bool
  | .reader (.read _) | .reader .fail => true
  | _ => false

/-- The assumptions: every goroutine that can move again and again moves again and again. Reading from the
port is not a move of the reader, a new connection or a new request is nobody's move. -/
structure FairConn {lv : LoopVars} (e : Exec (step lv)) : Prop where
  writer : ∀ w, Fairly e fun l => l = .writer w
  timer : ∀ t, Fairly e fun l => l = .timer t
  reader : Fairly e fun l => isReader l = true ∧ external l = false
  result : ∀ w, Fairly e fun l => l = .resultTimeout w
  take : ∀ u, Fairly e fun l => ∃ w, l = .take w (.client u)
  client : ∀ u, Fairly e fun l => ∃ op, l = .client u op

end Verif.Spec
