import Verif.Go.Basic

/-
float64 as far as the modelled code depends on it.
-/

namespace Verif.Go

/-- A float64 value.  Finite values are arbitrary rationals (a superset of the float64 values;
`-0` is `0`); rounding is not modelled. -/
inductive Float64 where
  | nan
  | negInf
  | posInf
  | fin (q : Rat)
deriving DecidableEq, Repr, Inhabited

namespace Float64

/-- Go's `<` on float64: false as soon as NaN is involved. -/
def lt : Float64 → Float64 → Bool
  | .nan, _ => false
  | _, .nan => false
  | .negInf, .negInf => false
  | .negInf, _ => true
  | .posInf, _ => false
  | .fin _, .negInf => false
  | .fin _, .posInf => true
  | .fin a, .fin b => decide (a < b)

/-- Truncation of a rational towards zero. -/
def trunc (q : Rat) : Int := if q < 0 then -((-q).floor) else q.floor

/-- Go's conversion `byte(v)`: truncation when the result fits; otherwise (and for NaN and
infinities) the language leaves the value to the implementation, here `undef`. -/
def toByte (undef : Float64 → UInt8) : Float64 → UInt8
  | .fin q => if 0 ≤ trunc q ∧ trunc q ≤ 255 then UInt8.ofNat (trunc q).toNat else undef (.fin q)
  | v => undef v

end Float64

end Verif.Go
