/-
Specification of serial API frames, independent of the model: start byte, length byte counting
everything after itself, body, and a checksum byte that makes the XOR of all bytes after the start
byte equal to 0xFF.
-/

namespace Verif.Spec

/-- XOR of a list of bytes. -/
def xorAll : List UInt8 → UInt8
  | [] => 0
  | b :: r => b ^^^ xorAll r

/-- `f` is a complete serial API frame with body `body` (message type, function, data). -/
def IsFrame (body f : List UInt8) : Prop :=
  ∃ len ck : UInt8, f = 0x01 :: len :: (body ++ [ck]) ∧ len.toNat = body.length + 1 ∧
    xorAll (len :: (body ++ [ck])) = 0xFF

/-- Bit `i` of a byte (bit 0 is the least significant). -/
def bit (b : UInt8) (i : Nat) : Bool := b.toNat.testBit i

end Verif.Spec

namespace Verif.Spec

/-- Buffers on which parsing a message reads outside its data and crashes: too short for the fixed
header, or (command-handler / discovery messages) an inner length that does not fit.  `cap` is the
capacity of the slice. -/
def Explodes (v : List UInt8) (cap : Nat) : Prop :=
  v.length = 0 ∨ v.length = 2 ∨ v.length = 3 ∨
  (v[3]? = some 0x04 ∧
    (v.length ≤ 6 ∨ ∃ n, v[6]? = some n ∧ (249 ≤ n.toNat ∨ cap < 7 + n.toNat ∨ n.toNat < 2))) ∨
  (v[3]? = some 0x02 ∧
    (v.length ≤ 6 ∨ ∃ n, v[6]? = some n ∧ (249 ≤ n.toNat ∨ cap < 7 + n.toNat ∨ 29 < n.toNat)))

/-- Frame bodies (message type, function, data) that the library can parse from the frame alone:
a command-handler message carries a command of at least two bytes inside the frame, a discovery
reply a bitmap of at most 29 bytes inside the frame, a protocol-info reply at least six data bytes;
other functions carry anything. -/
def SaneBody (body : List UInt8) : Prop :=
  (∃ ty rx node n rest, body = ty :: 0x04 :: rx :: node :: n :: rest ∧
    2 ≤ n.toNat ∧ n.toNat ≤ 248 ∧ n.toNat ≤ rest.length) ∨
  (∃ ty a b n rest, body = ty :: 0x02 :: a :: b :: n :: rest ∧
    n.toNat ≤ 29 ∧ n.toNat ≤ rest.length) ∨
  (∃ ty rest, body = ty :: 0x41 :: rest ∧ 6 ≤ rest.length) ∨
  (∃ ty fn rest, body = ty :: fn :: rest ∧ fn ≠ 0x04 ∧ fn ≠ 0x02 ∧ fn ≠ 0x41)

/-- The index of the byte `Decode` overwrites: the checksum position of a complete candidate frame. -/
def checksumPos (v : List UInt8) : Option Nat :=
  match v with
  | 0x01 :: L :: rest => if L.toNat ≤ rest.length then some (L.toNat + 1) else none
  | _ => none

end Verif.Spec
