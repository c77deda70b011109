import Verif.Spec.Process
import Verif.Spec.Reports

/-
What a node says about itself on the wire, for C110.
-/

namespace Verif.Spec

open Verif.Go Verif.Model

/-- Frame `f` is a manufacturer report of node `b`; `m`, `t` and `p` are its three numbers as four hexadecimal digits. -/
def SaysProduct (f : List UInt8) (b : UInt8) (m t p : List Char) : Prop :=
  ∃ d0 d1 d2 d3 d4 d5 : UInt8, CarriesCmd f b 0x72 0x05 [d0, d1, d2, d3, d4, d5] ∧
    (∀ s ∈ [m, t, p], s.length = 4 ∧ ∀ c ∈ s, IsHexLower c) ∧
    hexNum m = d0.toNat * 256 + d1.toNat ∧ hexNum t = d2.toNat * 256 + d3.toNat ∧ hexNum p = d4.toNat * 256 + d5.toNat

/-- Frame `f` is an endpoint report of node `b` that says `k`. -/
def SaysEndpoints (f : List UInt8) (b : UInt8) (k : Nat) : Prop :=
  ∃ x y : UInt8, ∃ rest, CarriesCmd f b 0x60 0x08 (x :: y :: rest) ∧ k = y.toNat

end Verif.Spec
