import Verif.Lemmas.Serial

set_option linter.unusedSimpArgs false

namespace Verif.Lemmas

open Verif.Go Verif.Model Verif.Spec

/-- What `Decode` returns for a frame with a correct checksum, given the outcome of `NewMessage`. -/
def frameOut (n : Nat) (d' : Slice) : GoRet Message → DecodeOut × Slice
  | .ok m => (⟨(n : Nat), some m, none⟩, d')
  | .error e => (⟨(n : Nat), none, some e⟩, d')

theorem decode_nil (sp : List UInt8) : decode ⟨[], sp⟩ = .error .index := rfl

theorem decode_sof_short (sp : List UInt8) :
    decode ⟨[0x01], sp⟩ = .ok (⟨2, none, none⟩, ⟨[0x01], sp⟩) := by
  simp [decode, get_cons_zero, bind, Except.bind, pure, Except.pure, Slice.len]

theorem decode_incomplete (L : UInt8) (rest sp : List UInt8) (h : rest.length < L.toNat) :
    decode ⟨0x01 :: L :: rest, sp⟩ =
      .ok (⟨(L.toNat + 2 : Nat), none, none⟩, ⟨0x01 :: L :: rest, sp⟩) := by
  have h2 : rest.length + 1 + 1 < L.toNat + 2 := by omega
  have h3 : ¬ (rest.length + 1 + 1 < 2) := by omega
  simp [decode, Slice.get, bind, Except.bind, pure, Except.pure, Slice.len, h2, h3]

theorem decode_zero_length (rest sp : List UInt8) :
    decode ⟨0x01 :: 0x00 :: rest, sp⟩ =
      .ok (⟨-1, none, some .checksum⟩, ⟨0x01 :: 0x00 :: rest, sp⟩) := by
  have h : Slice.appendSub ⟨0x01 :: 0x00 :: rest, sp⟩ 1 1 0x00 =
      .ok ([0x00], ⟨0x01 :: 0x00 :: rest, sp⟩) := by
    simp [Slice.appendSub, Slice.cap, Slice.len]
  have h3 : ¬ (rest.length + 1 + 1 < 2) := by omega
  have h4 : ¬ ((0 : UInt8) = -1) := by decide
  simp [decode, Slice.get, bind, Except.bind, pure, Except.pure, Slice.len, h, h3, h4,
    generateChecksum]

/-- `Decode` on a buffer that holds a complete candidate frame. -/
theorem decode_complete (L ck : UInt8) (body tail sp : List UInt8)
    (h : L.toNat = body.length + 1) :
    decode ⟨0x01 :: L :: (body ++ ck :: tail), sp⟩ =
      if xorAll (L :: (body ++ [ck])) = 0xFF then
        (newMessage ⟨0x01 :: L :: (body ++ 0x00 :: tail), sp⟩).map
          (frameOut (L.toNat + 2) ⟨0x01 :: L :: (body ++ 0x00 :: tail), sp⟩)
      else .ok (⟨-1, none, some .checksum⟩, ⟨0x01 :: L :: (body ++ 0x00 :: tail), sp⟩) := by
  have hlen : ¬ ((body ++ ck :: tail).length + 1 + 1 < L.toNat + 2) := by simp; omega
  have happ := appendSub_frame L ck 0x00 body tail sp (L.toNat + 1) (by omega)
  have hget : Slice.get ⟨0x01 :: L :: (body ++ ck :: tail), sp⟩ (L.toNat + 1) = .ok ck := by
    simp [Slice.get, h]
  have hg := generateChecksum_snoc L body 0x00
  simp only [decode, get_cons_zero, bind, Except.bind, pure, Except.pure, Slice.len,
    List.length_cons, if_true]
  have h0 : ¬ ((body ++ ck :: tail).length + 1 + 1 < 2) := by simp
  have hget1 : Slice.get ⟨0x01 :: L :: (body ++ ck :: tail), sp⟩ 1 = .ok L := rfl
  simp only [h0, if_false, hget1, hlen, hget, happ, hg]
  by_cases hck : xorAll (L :: (body ++ [ck])) = 0xFF
  · have := (checksum_iff L body ck).2 hck
    rw [if_pos hck, if_neg (by simpa using this)]
    cases newMessage ⟨0x01 :: L :: (body ++ 0x00 :: tail), sp⟩ with
    | error p => rfl
    | ok r => cases r <;> rfl
  · have : ck ≠ xorAll (L :: body) ^^^ 0xFF := fun hh => hck ((checksum_iff L body ck).1 hh)
    rw [if_neg hck, if_pos this]

/-- What `Decode` returns for a control byte, given the outcome of `NewMessage`. -/
def ctrlOut (d : Slice) : GoRet Message → DecodeOut × Slice
  | .ok m => (⟨1, some m, none⟩, d)
  | .error _ => (⟨1, none, none⟩, d)

theorem decode_ctrl (b : UInt8) (rest sp : List UInt8) (h : b = 0x06 ∨ b = 0x15 ∨ b = 0x18) :
    decode ⟨b :: rest, sp⟩ = (newMessage ⟨b :: rest, sp⟩).map (ctrlOut ⟨b :: rest, sp⟩) := by
  have h1 : b ≠ 0x01 := by rcases h with h | h | h <;> subst h <;> decide
  simp only [decode, get_cons_zero, bind, Except.bind, pure, Except.pure, if_neg h1, if_pos h]
  cases newMessage ⟨b :: rest, sp⟩ with
  | error p => rfl
  | ok r => cases r <;> rfl

theorem decode_junk (b : UInt8) (rest sp : List UInt8)
    (h : b ≠ 0x01 ∧ b ≠ 0x06 ∧ b ≠ 0x15 ∧ b ≠ 0x18) :
    decode ⟨b :: rest, sp⟩ = .ok (⟨-1, none, none⟩, ⟨b :: rest, sp⟩) := by
  simp [decode, get_cons_zero, bind, Except.bind, pure, Except.pure, h]

/-- Every non-empty buffer falls in one of the cases above. -/
theorem buffer_cases (v : List UInt8) (hv : v ≠ []) :
    (v = [0x01]) ∨
    (∃ L rest, v = 0x01 :: L :: rest ∧ rest.length < L.toNat) ∨
    (∃ rest, v = 0x01 :: 0x00 :: rest) ∨
    (∃ L body ck tail, v = 0x01 :: L :: (body ++ ck :: tail) ∧ L.toNat = body.length + 1) ∨
    (∃ b rest, v = b :: rest ∧ (b = 0x06 ∨ b = 0x15 ∨ b = 0x18)) ∨
    (∃ b rest, v = b :: rest ∧ (b ≠ 0x01 ∧ b ≠ 0x06 ∧ b ≠ 0x15 ∧ b ≠ 0x18)) := by
  match v, hv with
  | b :: rest, _ =>
    by_cases h1 : b = 0x01
    · subst h1
      match rest with
      | [] => left; rfl
      | L :: rest =>
        right
        by_cases hl : rest.length < L.toNat
        · left; exact ⟨L, rest, rfl, hl⟩
        · right
          by_cases h0 : L.toNat = 0
          · left
            have : L = 0 := by
              apply UInt8.toNat_inj.1; simpa using h0
            subst this; exact ⟨rest, rfl⟩
          · right; left
            have hlt : L.toNat - 1 < rest.length := by omega
            refine ⟨L, rest.take (L.toNat - 1), rest[L.toNat - 1], rest.drop (L.toNat), ?_, ?_⟩
            · congr 2
              have := List.take_append_drop (L.toNat - 1) rest
              rw [List.drop_eq_getElem_cons hlt] at this
              have e : L.toNat - 1 + 1 = L.toNat := by omega
              rw [e] at this
              exact this.symm
            · simp; omega
    · right; right; right; right
      by_cases h2 : b = 0x06 ∨ b = 0x15 ∨ b = 0x18
      · left; exact ⟨b, rest, rfl, h2⟩
      · right; refine ⟨b, rest, rfl, h1, ?_⟩
        simpa [not_or] using h2

end Verif.Lemmas
