import Verif.Model.Users
import Verif.Spec.Fair
import Verif.Spec.Ctl

/-
The program of the example: what it reaches and when it is run fairly.
-/

namespace Verif.Spec

open Verif.Go Verif.Model

/-- Reached from the moment at which `Connect` returns with controller `c`. -/
inductive UReach (db : DB) (c : CSt) : USt → Prop
  | init : UReach db c (.init c)
  | step {s s' : USt} (l : ULabel) : UReach db c s → uStep db s l = some s' → UReach db c s'

/-- The same, from any state. -/
inductive UThen (db : DB) (s : USt) : USt → Prop
  | now : UThen db s s
  | step {t t' : USt} (l : ULabel) : UThen db s t → uStep db t l = some t' → UThen db s t'

/-- The process is gone. -/
def UDead (s : USt) : Prop := s.crashed ≠ none ∨ s.ctl.crashed ≠ none

/-- The event the main goroutine is dealing with. -/
def inHand (s : USt) : List Event :=
  match s.loop with
  | .wait => []
  | .got e | .look e | .print e _ | .stuck e => [e]

/-- The steps of the controller in `A`. -/
def ofCtl (A : CLabel → Prop) : ULabel → Prop
  | .ctl l => A l
  | _ => False

/-- The assumptions: no goroutine of the controller or of the program is passed over for ever, and time goes on
unless the process dies. -/
structure FairUsers {db : DB} (e : Exec (uStep db)) : Prop where
  disc : Fairly e (ofCtl fun l => ∃ a, l = .disc a)
  deliver : ∀ k, Fairly e (ofCtl fun l => l = .deliver k)
  proc : ∀ ref j, Fairly e (ofCtl fun l => l = .node ref (.proc j))
  saver : Fairly e (ofCtl fun l => ∃ op, l = .saver op)
  time : ∀ t n, ∃ m, n ≤ m ∧ (t ≤ (e.st m).ctl.now ∨ UDead (e.st m))
  loop : Fairly e (· = .loop)
  req : ∀ k, Fairly e (· = .req k)

end Verif.Spec
