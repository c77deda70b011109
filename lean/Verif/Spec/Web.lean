import Verif.Model.Node

/-
What the web interface of the example is meant to do.
-/

namespace Verif.Spec

/-- The number that a text of decimal digits stands for: the last digit counts once, the one before it ten
times, and so on. -/
def digitsValue : List Char → Nat
  | [] => 0
  | c :: s => (c.toNat - 48) * 10 ^ s.length + digitsValue s

/-- `t` is a decimal number with value `i` that fits in an int. -/
def Decimal (t : List Char) (i : Int) : Prop :=
  ∃ sg ds, t = sg ++ ds ∧ ds ≠ [] ∧ (∀ c ∈ ds, 48 ≤ c.toNat ∧ c.toNat ≤ 57) ∧
    (sg = [] ∧ i = digitsValue ds ∨ sg = ['+'] ∧ i = digitsValue ds ∨ sg = ['-'] ∧ i = -(digitsValue ds : Int)) ∧
    -(2 ^ 63) ≤ i ∧ i < 2 ^ 63

/-- The node with number `i`. -/
def NodeAt (m : Model.GoMap Int Model.Node) (i : Int) (n : Model.Node) : Prop := m.get i = some n

/-- Nodes are never taken off the list; what is known about them may change. -/
def Keeps (m m' : Model.GoMap Int Model.Node) : Prop := ∀ i n, NodeAt m i n → ∃ n', NodeAt m' i n'

/-- Every node is listed under its own number. -/
def OwnNumber (m : Model.GoMap Int Model.Node) : Prop := ∀ i n, NodeAt m i n → n.id = i

end Verif.Spec
