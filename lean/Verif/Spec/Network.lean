import Verif.Model.Controller

/-
A network that has not changed since the file was written, for C123.
-/

namespace Verif.Spec

open Verif.Model

/-- Every node the stick reported (controller.go 55-62, `ActiveNodes` from the second entry on) is in the file. -/
def SameNetwork (ns : List Node) (h : List CEv) : Prop :=
  ∀ bm, CEv.reply bm ∈ h → ∀ i : Nat, 0 < i → bm[i]? = some true → ∃ n ∈ ns, n.id = ((i + 1 : Nat) : Int)

end Verif.Spec
