import Verif.Model.Serial
import Verif.Spec.Frame

set_option linter.unusedSimpArgs false

namespace Verif.Lemmas

open Verif.Go Verif.Model Verif.Spec

/-! ### bytes -/

theorem u8_forall {P : UInt8 → Prop} (h : ∀ i : Fin 256, P (UInt8.ofNat i.val)) (b : UInt8) :
    P b := by
  have h' := h ⟨b.toNat, b.toNat_lt⟩
  simpa using h'

theorem xor_zero_u8 (a : UInt8) : a ^^^ 0 = a := by simp
theorem zero_xor_u8 (a : UInt8) : 0 ^^^ a = a := by simp

theorem xorAll_append (a b : List UInt8) : xorAll (a ++ b) = xorAll a ^^^ xorAll b := by
  induction a with
  | nil => simp [xorAll]
  | cons x r ih => simp [xorAll, ih, UInt8.xor_assoc]

theorem foldl_xor (l : List UInt8) (a : UInt8) : l.foldl (· ^^^ ·) a = a ^^^ xorAll l := by
  induction l generalizing a with
  | nil => simp [xorAll]
  | cons x r ih => simp [xorAll, ih, UInt8.xor_assoc]

theorem not_eq_xor (a : UInt8) : ~~~ a = a ^^^ 0xFF :=
  u8_forall (P := fun a => ~~~ a = a ^^^ 0xFF) (by decide +kernel) a

theorem xor_eq_iff (a b c : UInt8) : a ^^^ b = c ↔ b = a ^^^ c := by
  constructor
  · rintro rfl; rw [← UInt8.xor_assoc, UInt8.xor_self, zero_xor_u8]
  · rintro rfl; rw [← UInt8.xor_assoc, UInt8.xor_self, zero_xor_u8]

theorem xor_left_cancel {a b c : UInt8} (h : a ^^^ b = a ^^^ c) : b = c := by
  rw [xor_eq_iff, ← UInt8.xor_assoc, UInt8.xor_self, zero_xor_u8] at h
  exact h

theorem generateChecksum_snoc (a : UInt8) (l : List UInt8) (z : UInt8) :
    generateChecksum (a :: (l ++ [z])) = .ok (xorAll (a :: l) ^^^ 0xFF) := by
  simp [generateChecksum, foldl_xor, not_eq_xor, xorAll]

theorem checksum_iff (a : UInt8) (l : List UInt8) (ck : UInt8) :
    ck = xorAll (a :: l) ^^^ 0xFF ↔ xorAll (a :: (l ++ [ck])) = 0xFF := by
  have : xorAll (a :: (l ++ [ck])) = xorAll (a :: l) ^^^ ck := by
    have := xorAll_append (a :: l) [ck]
    simpa [xorAll] using this
  rw [this, xor_eq_iff]

/-! ### slices -/

theorem get_cons_zero (a : UInt8) (l sp : List UInt8) :
    Slice.get ⟨a :: l, sp⟩ 0 = .ok a := rfl

theorem get_ok {s : Slice} {i : Nat} (h : i < s.vis.length) : s.get i = .ok s.vis[i] := by
  simp [Slice.get, h]

theorem get_eq_ok {s : Slice} {i : Nat} {b : UInt8} : s.get i = .ok b ↔ s.vis[i]? = some b := by
  unfold Slice.get
  split <;> simp_all

theorem get_err {s : Slice} {i : Nat} (h : s.vis.length ≤ i) : s.get i = .error .index := by
  simp [Slice.get, h]

theorem fromIdx_ok {s : Slice} {i : Nat} (h : i ≤ s.vis.length) :
    s.fromIdx i = .ok ⟨s.vis.drop i, s.spare⟩ := by
  simp [Slice.fromIdx, Slice.len, h]

theorem appendSub_frame (L ck z : UInt8) (body tail sp : List UInt8) (n : Nat)
    (h : n = body.length + 2) :
    Slice.appendSub ⟨0x01 :: L :: (body ++ ck :: tail), sp⟩ 1 n z =
      .ok (L :: (body ++ [z]), ⟨0x01 :: L :: (body ++ z :: tail), sp⟩) := by
  subst h
  unfold Slice.appendSub
  have h1 : (1 ≤ body.length + 2 ∧
      body.length + 2 ≤ Slice.cap ⟨0x01 :: L :: (body ++ ck :: tail), sp⟩) := by
    simp [Slice.cap]; omega
  have h2 : body.length + 2 < Slice.cap ⟨0x01 :: L :: (body ++ ck :: tail), sp⟩ := by
    simp [Slice.cap]; omega
  rw [if_pos h1, if_pos h2]
  simp [Slice.len, List.take_append, List.drop_append, List.take_of_length_le]

end Verif.Lemmas
