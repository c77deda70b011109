import Verif.Model.Controller
import Verif.Spec.Fair

/-
Fair executions of a controller.
-/

namespace Verif.Spec

open Verif.Model

/-- The assumptions: the goroutine of the discovery, those that deliver reports, those of the nodes that
process a wake-up and the saver move again and again if they can, and time goes on unless the process dies. Nothing is assumed of the
user, of identifications and of what arrives. -/
structure FairCtl {db : DB} (e : Exec (cStep db)) : Prop where
  disc : Fairly e fun l => ∃ a, l = .disc a
  deliver : ∀ k, Fairly e fun l => l = .deliver k
  proc : ∀ ref j, Fairly e fun l => l = .node ref (.proc j)
  saver : Fairly e fun l => ∃ op, l = .saver op
  time : ∀ t n, ∃ m, n ≤ m ∧ (t ≤ (e.st m).now ∨ (e.st m).crashed ≠ none)

end Verif.Spec
