/-
float64 values and correct rounding, as rationals.
-/

namespace Verif.Spec

/-- The finite values of float64 (IEEE 754 binary64): a significand below 2^53 times a power of two. -/
def IsFloat64 (x : Rat) : Prop :=
  ∃ (m : Int) (k : Nat), -(2 ^ 53) < m ∧ m < 2 ^ 53 ∧
    ((x = m * (2 ^ k : Nat) ∧ k ≤ 971) ∨ (x * (2 ^ k : Nat) = m ∧ k ≤ 1074))

/-- Distance. -/
def dist (a b : Rat) : Rat := if a ≤ b then b - a else a - b

/-- `x` is a result that IEEE arithmetic, rounding to nearest, may deliver for the exact value `q` (with either of the
two candidates if `q` lies in the middle). -/
def Nearest (q x : Rat) : Prop := IsFloat64 x ∧ ∀ y, IsFloat64 y → dist x q ≤ dist y q

end Verif.Spec
