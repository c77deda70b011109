import Verif.Spec.ConnFair
import Verif.Spec.ConnReader

/-
What the reader of a connection owes in a fair execution.
-/

namespace Verif.Spec

open Verif.Model Verif.Model.Conn

/-- The steps of an execution before moment `n`. -/
def before {lv : LoopVars} (e : Exec (step lv)) (n : Nat) : List Label := (List.range n).filterMap e.lab

/-- From moment `n` on no request, new or repeated, is handed to a writer. -/
def NoneTaken {lv : LoopVars} (e : Exec (step lv)) (n : Nat) : Prop :=
  ∀ m, n ≤ m → ∀ w src, e.lab m ≠ some (.take w src)

/-- All that the bytes read so far call for has been done: the frames matched, the reports handed to the callback
and the ACKs written are, in order, those of the byte level reader. -/
def Processed (ls : List Label) (s : St) : Prop :=
  ∃ as, expected (sessions ls) = .ok as ∧ observed s = as.filterMap obsAct

end Verif.Spec
