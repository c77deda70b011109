import Verif.Model.NodeM
import Verif.Spec.Fair

/-
Fair executions of a node, and nodes that answer in the end.
-/

namespace Verif.Spec

open Verif.Model

/-- The assumptions on the scheduler: the goroutine of the identification and those that process a wake-up move
again and again if they can. -/
structure FairNode {db : DB} (e : Exec (nodeStep db)) : Prop where
  ident : Fairly e fun l => ∃ a, l = .ident 0 a
  proc : ∀ j, Fairly e fun l => l = .proc j

/-- What an identification asks for. -/
inductive Asked where
  | info
  | manufacturer
  | endpoints
deriving DecidableEq, Repr

/-- What the identification waits for. -/
def asked : IdentAt → Option Asked
  | .info => some .info
  | .reply .manufacturer => some .manufacturer
  | .reply .endpoints => some .endpoints
  | _ => none

/-- The answer is the one asked for. -/
def answers : Asked → Answer → Bool
  | .info, .info _ => true
  | .manufacturer, .report (.manufacturerSpecific _) => true
  | .endpoints, .report (.multiChannelEndpoints _) => true
  | _, _ => false

/-- A node that answers in the end: what is asked for again and again is answered again and again. Any number of
requests may be lost, time out or be answered by something else. -/
def FairLoss {db : DB} (e : Exec (nodeStep db)) : Prop :=
  ∀ k, (∀ n, ∃ m a, n ≤ m ∧ e.lab m = some (.ident 0 a) ∧ asked ((e.st m).ident 0) = some k) →
    ∃ m a, e.lab m = some (.ident 0 a) ∧ asked ((e.st m).ident 0) = some k ∧ answers k a = true

/-- A node that wakes up again and again. -/
def WakesUp {db : DB} (e : Exec (nodeStep db)) : Prop :=
  ∀ n, ∃ m, n ≤ m ∧ e.lab m = some (.report .wakeUp)

/-- `Identify` is called once, at moment `k`. -/
def IdentifiedOnce {db : DB} (e : Exec (nodeStep db)) (k : Nat) : Prop :=
  ∀ m, e.lab m = some .identify ↔ m = k

end Verif.Spec
