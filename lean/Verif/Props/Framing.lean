import Verif.Lemmas.NewMessage

/-
C01–C06: outgoing frames, frame acceptance, corruption, incomplete data, buffer mutation, panics of
`serialapi.Decode`.
-/

set_option linter.unusedSimpArgs false

namespace Verif.Props

open Verif.Go Verif.Model Verif.Spec Verif.Lemmas

/-! ## C01 -/

/-- C01.  For every payload of at most 253 bytes `CompileMessage` yields
`0x01, len+2, 0x00, payload, checksum`, and that is a well-formed frame. -/
theorem C01_compile_wellformed (data : List UInt8) (h : data.length ≤ 253) :
    ∃ ck : UInt8,
      compileMessage data =
        .ok (0x01 :: UInt8.ofNat (data.length + 2) :: 0x00 :: (data ++ [ck])) ∧
      IsFrame (0x00 :: data)
        (0x01 :: UInt8.ofNat (data.length + 2) :: 0x00 :: (data ++ [ck])) := by
  refine ⟨xorAll (UInt8.ofNat (data.length + 2) :: 0x00 :: data) ^^^ 0xFF, ?_, ?_⟩
  · have hg := generateChecksum_snoc (UInt8.ofNat (data.length + 2)) (0x00 :: data) 0x00
    simp only [compileMessage, toByte]
    have e1 : ([0x00, 0x00] ++ data ++ [0x00] : List UInt8).set 0
        (UInt8.ofNat (([0x00, 0x00] ++ data ++ [0x00] : List UInt8).length - 1)) =
        UInt8.ofNat (data.length + 2) :: (0x00 :: data ++ [0x00]) := by
      simp
    rw [e1, hg, bind_ok]
    simp [pure, Except.pure]
  · refine ⟨UInt8.ofNat (data.length + 2), _, rfl, ?_, ?_⟩
    · simp [Nat.mod_eq_of_lt (show data.length + 2 < 256 by omega)]
    · exact (checksum_iff _ (0x00 :: data) _).1 rfl

/-- C01, the limit is sharp: for 254 bytes and more the length byte wraps and the result is not a
frame, whatever body one reads into it. -/
theorem C01_compile_wraps (data : List UInt8) (h : 254 ≤ data.length) :
    ∃ f, compileMessage data = .ok f ∧ ∀ body, ¬ IsFrame body f := by
  have hg := generateChecksum_snoc (UInt8.ofNat (data.length + 2)) (0x00 :: data) 0x00
  refine ⟨0x01 :: UInt8.ofNat (data.length + 2) :: 0x00 ::
    (data ++ [xorAll (UInt8.ofNat (data.length + 2) :: 0x00 :: data) ^^^ 0xFF]), ?_, ?_⟩
  · simp only [compileMessage, toByte]
    have e1 : ([0x00, 0x00] ++ data ++ [0x00] : List UInt8).set 0
        (UInt8.ofNat (([0x00, 0x00] ++ data ++ [0x00] : List UInt8).length - 1)) =
        UInt8.ofNat (data.length + 2) :: (0x00 :: data ++ [0x00]) := by
      simp
    rw [e1, hg, bind_ok]
    simp [pure, Except.pure]
  · rintro body ⟨len, ck, he, hl, -⟩
    have h1 := congrArg List.length he
    simp at h1
    have := len.toNat_lt
    omega

example : (List.replicate 253 (7 : UInt8)).length ≤ 253 := by rw [List.length_replicate]; exact Nat.le_refl _
example : compileMessage [0x02] = .ok [0x01, 0x03, 0x00, 0x02, 0xFE] := by decide

/-! ## C02 -/

/-- C02, soundness.  A frame reported inside the buffer is a well-formed frame at its start. -/
theorem C02_accept_sound (v sp : List UInt8) (o : DecodeOut) (d' : Slice)
    (h : decode ⟨v, sp⟩ = .ok (o, d')) (h1 : 1 < o.length) (h2 : o.length ≤ v.length) :
    ∃ body f tail, v = f ++ tail ∧ IsFrame body f ∧ o.length = f.length := by
  have hv : v ≠ [] := by rintro rfl; rw [decode_nil] at h; cases h
  rcases buffer_cases v hv with rfl | ⟨L, rest, rfl, hl⟩ | ⟨rest, rfl⟩ |
      ⟨L, body, ck, tail, rfl, hl⟩ | ⟨b, rest, rfl, hb⟩ | ⟨b, rest, rfl, hb⟩
  · rw [decode_sof_short] at h; cases h; simp at h2
  · rw [decode_incomplete L rest sp hl] at h; cases h; simp at h2; omega
  · rw [decode_zero_length] at h; cases h; simp at h1
  · rw [decode_complete L ck body tail sp hl] at h
    split at h
    · rename_i hck
      refine ⟨body, 0x01 :: L :: (body ++ [ck]), tail, by simp, ⟨L, ck, rfl, hl, hck⟩, ?_⟩
      cases hm : newMessage ⟨0x01 :: L :: (body ++ 0x00 :: tail), sp⟩ with
      | error p => rw [hm] at h; cases h
      | ok r =>
        rw [hm] at h
        cases r <;> (cases h; simp; omega)
    · cases h; simp at h1
  · rw [decode_ctrl b rest sp hb] at h
    cases hm : newMessage ⟨b :: rest, sp⟩ with
    | error p => rw [hm] at h; cases h
    | ok r => rw [hm] at h; cases r <;> (cases h; simp at h1)
  · rw [decode_junk b rest sp hb] at h; cases h; simp at h1

/-- C02, completeness.  A buffer that starts with a well-formed frame is reported with exactly that
frame's length (unless the call panics): never as incomplete, never as a checksum error. -/
theorem C02_accept_complete (body f tail sp : List UInt8) (o : DecodeOut) (d' : Slice)
    (hf : IsFrame body f) (h : decode ⟨f ++ tail, sp⟩ = .ok (o, d')) :
    o.length = f.length ∧ o.err ≠ some .checksum := by
  obtain ⟨L, ck, rfl, hl, hck⟩ := hf
  have e : 0x01 :: L :: (body ++ [ck]) ++ tail = 0x01 :: L :: (body ++ ck :: tail) := by simp
  rw [e, decode_complete L ck body tail sp hl, if_pos hck] at h
  cases hm : newMessage ⟨0x01 :: L :: (body ++ 0x00 :: tail), sp⟩ with
  | error p => rw [hm] at h; cases h
  | ok r =>
    rw [hm] at h
    cases r with
    | ok m => cases h; simp; omega
    | error e =>
      cases h
      refine ⟨by simp; omega, ?_⟩
      -- the error comes from `NewMessage`, which never reports a checksum error
      intro he
      injection he with he
      subst he
      revert hm
      generalize (⟨0x01 :: L :: (body ++ 0x00 :: tail), sp⟩ : Slice) = d
      intro hm
      exact newMessage_err_ne_checksum d hm

example : IsFrame [0x01, 0x13, 0x01] [0x01, 0x04, 0x01, 0x13, 0x01, 0xE8] :=
  ⟨0x04, 0xE8, rfl, rfl, by decide⟩
example : ∃ o d', decode ⟨[0x01, 0x04, 0x01, 0x13, 0x01, 0xE8, 0x06], []⟩ = .ok (o, d') ∧
    1 < o.length ∧ o.length ≤ 7 := ⟨_, _, rfl, by decide, by decide⟩

/-! ## C03 -/

theorem xorAll_set_ne (l : List UInt8) (i : Nat) (b : UInt8) (hi : i < l.length)
    (hb : b ≠ l[i]) : xorAll (l.set i b) ≠ xorAll l := by
  induction l generalizing i with
  | nil => simp at hi
  | cons a r ih =>
    cases i with
    | zero =>
      simp only [List.set_cons_zero, xorAll]
      intro h
      rw [UInt8.xor_comm b, UInt8.xor_comm a] at h
      exact hb (by simpa using xor_left_cancel h)
    | succ i =>
      simp only [List.set_cons_succ, xorAll]
      intro h
      exact ih i (by simpa using hi) (by simpa using hb) (xor_left_cancel h)

/-- C03.  Replacing any one byte after the length byte of a well-formed frame by a different value
makes `Decode` return -1, no message and a checksum error, whatever follows in the buffer. -/
theorem C03_single_corruption (body f tail sp : List UInt8) (hf : IsFrame body f)
    (i : Nat) (hi : 2 ≤ i) (hi2 : i < f.length) (b : UInt8) (hb : b ≠ f[i]) :
    ∃ d', decode ⟨f.set i b ++ tail, sp⟩ = .ok (⟨-1, none, some .checksum⟩, d') := by
  obtain ⟨L, ck, rfl, hl, hck⟩ := hf
  match i, hi with
  | j + 2, _ =>
    simp only [List.set_cons_succ]
    have hj : j < (body ++ [ck]).length := by simpa using hi2
    have hb' : b ≠ (body ++ [ck])[j] := by simpa using hb
    have hx := xorAll_set_ne (body ++ [ck]) j b hj hb'
    -- the damaged tail is again `body' ++ [ck']`
    have hne : (body ++ [ck]).set j b ≠ [] := by
      intro h; have := congrArg List.length h; simp at this
    have hsplit := List.dropLast_concat_getLast hne
    have hlen : ((body ++ [ck]).set j b).dropLast.length = body.length := by simp
    generalize hB : ((body ++ [ck]).set j b).dropLast = B at hsplit hlen
    generalize ((body ++ [ck]).set j b).getLast hne = c at hsplit
    refine ⟨⟨0x01 :: L :: (B ++ 0x00 :: tail), sp⟩, ?_⟩
    rw [← hsplit]
    have e : 0x01 :: L :: (B ++ [c]) ++ tail = 0x01 :: L :: (B ++ c :: tail) := by simp
    rw [e, decode_complete L c B tail sp (by omega), if_neg]
    rw [hsplit]
    simp only [xorAll] at hck ⊢
    intro h
    rw [← hck] at h
    exact hx (xor_left_cancel h)

example : decode ⟨[0x01, 0x04, 0x01, 0x13, 0x00, 0xE8], []⟩ =
    .ok (⟨-1, none, some .checksum⟩, ⟨[0x01, 0x04, 0x01, 0x13, 0x00, 0x00], []⟩) := by decide

/-! ## C04 -/

/-- C04.  On a proper non-empty prefix of a frame `Decode` asks for more data than there is, but not
for more than the frame, returns neither message nor error and leaves the buffer alone. -/
theorem C04_incomplete (body f p q sp : List UInt8) (hf : IsFrame body f) (hpq : f = p ++ q)
    (hp : p ≠ []) (hq : q ≠ []) :
    ∃ n : Nat, decode ⟨p, sp⟩ = .ok (⟨n, none, none⟩, ⟨p, sp⟩) ∧ p.length < n ∧ n ≤ f.length := by
  obtain ⟨L, ck, rfl, hl, hck⟩ := hf
  match p, hp with
  | [a], _ =>
    have : a = 0x01 := by simp at hpq; exact hpq.1.symm
    subst this
    exact ⟨2, decode_sof_short sp, by simp, by simp⟩
  | a :: b :: r, _ =>
    simp at hpq
    obtain ⟨rfl, rfl, h3⟩ := hpq
    have h4 := congrArg List.length h3
    have h5 : 0 < q.length := List.length_pos_iff.2 hq
    simp at h4
    refine ⟨L.toNat + 2, decode_incomplete L r sp (by omega), ?_, ?_⟩
    · simp; omega
    · simp; omega

example : ∃ n : Nat, decode ⟨[0x01, 0x04, 0x01], []⟩ = .ok (⟨n, none, none⟩, ⟨[0x01, 0x04, 0x01], []⟩) ∧
    3 < n ∧ n ≤ 6 := ⟨6, by decide, by decide, by decide⟩

/-! ## C05 -/

/-- C05 is violated: decoding a perfectly valid frame changes the caller's buffer. -/
theorem C05_violated_buffer_changed :
    ∃ (f : List UInt8) (o : DecodeOut) (d' : Slice),
      IsFrame [0x01, 0x13, 0x01] f ∧ decode ⟨f, []⟩ = .ok (o, d') ∧ d'.vis ≠ f :=
  ⟨[0x01, 0x04, 0x01, 0x13, 0x01, 0xE8], _, _, ⟨0x04, 0xE8, rfl, rfl, by decide⟩, rfl, by decide⟩

/-- C05, exact effect.  `Decode` changes nothing but the checksum byte of a complete candidate
frame at the start of the buffer (valid or not), which becomes 0x00; the bytes beyond the length
are never touched. (Missing for the full property: that byte is in fact changed.) -/
theorem C05_buffer_effect_partial (v sp : List UInt8) (o : DecodeOut) (d' : Slice)
    (h : decode ⟨v, sp⟩ = .ok (o, d')) :
    d' = match checksumPos v with
      | some i => ⟨v.set i 0x00, sp⟩
      | none => ⟨v, sp⟩ := by
  have hv : v ≠ [] := by rintro rfl; rw [decode_nil] at h; cases h
  rcases buffer_cases v hv with rfl | ⟨L, rest, rfl, hl⟩ | ⟨rest, rfl⟩ |
      ⟨L, body, ck, tail, rfl, hl⟩ | ⟨b, rest, rfl, hb⟩ | ⟨b, rest, rfl, hb⟩
  · rw [decode_sof_short] at h; cases h; rfl
  · rw [decode_incomplete L rest sp hl] at h; cases h
    have : ¬ L.toNat ≤ rest.length := by omega
    simp [checksumPos, this]
  · rw [decode_zero_length] at h; cases h
    simp [checksumPos]
  · have h1 : L.toNat ≤ (body ++ ck :: tail).length := by simp; omega
    have h2 : checksumPos (0x01 :: L :: (body ++ ck :: tail)) = some (L.toNat + 1) := by
      simp only [checksumPos]; rw [if_pos h1]
    have h3 : (0x01 :: L :: (body ++ ck :: tail)).set (L.toNat + 1) 0x00 =
        0x01 :: L :: (body ++ 0x00 :: tail) := by
      rw [hl]; simp
    rw [h2]
    simp only
    rw [h3]
    rw [decode_complete L ck body tail sp hl] at h
    split at h
    · cases hm : newMessage ⟨0x01 :: L :: (body ++ 0x00 :: tail), sp⟩ with
      | error p => rw [hm] at h; cases h
      | ok r => rw [hm] at h; cases r <;> (cases h; rfl)
    · cases h; rfl
  · have h2 : checksumPos (b :: rest) = none := by
      rcases hb with rfl | rfl | rfl <;> rfl
    rw [h2]
    rw [decode_ctrl b rest sp hb] at h
    cases hm : newMessage ⟨b :: rest, sp⟩ with
    | error p => rw [hm] at h; cases h
    | ok r => rw [hm] at h; cases r <;> (cases h; rfl)
  · rw [decode_junk b rest sp hb] at h; cases h
    have h2 : checksumPos (b :: rest) = none := by
      unfold checksumPos
      split
      · rename_i heq; injection heq with h1 h2; exact absurd h1 hb.1
      · rfl
    rw [h2]

/-! ## C06 -/

/-- C06 is violated: a valid frame with an empty body, an ACK followed by one more byte, an ACK
followed by two more bytes, a command-handler frame whose inner length is 1 and a discovery reply
with 30 bitmap bytes all crash `Decode`. -/
theorem C06_violated_panics :
    decode ⟨[0x01, 0x01, 0xFE], []⟩ = .error .index ∧
    decode ⟨[0x06, 0x01], []⟩ = .error .index ∧
    decode ⟨[0x06, 0x01, 0x04], []⟩ = .error .index ∧
    decode ⟨[0x01, 0x07, 0x00, 0x04, 0x00, 0x02, 0x01, 0x20, 0xDF], []⟩ = .error .index ∧
    decode ⟨[0x01, 0x24, 0x01, 0x02, 0x05, 0x00, 0x1E] ++ List.replicate 30 0x00 ++ [0xC3], []⟩
      = .error .index := by
  refine ⟨by decide, by decide, by decide, by decide, by decide +kernel⟩

/-- C06, exact panic condition.  `Decode` panics iff the buffer is empty, or it starts with a
control byte and the whole buffer cannot be parsed as a message, or it starts with a frame with
correct checksum and the buffer (after the checksum byte was zeroed) cannot be parsed. -/
theorem C06_panic_iff (v sp : List UInt8) :
    (∃ p, decode ⟨v, sp⟩ = .error p) ↔
      v = [] ∨
      (∃ b rest, v = b :: rest ∧ (b = 0x06 ∨ b = 0x15 ∨ b = 0x18) ∧
        Explodes v (v.length + sp.length)) ∨
      (∃ body f tail, v = f ++ tail ∧ IsFrame body f ∧
        Explodes (v.set (f.length - 1) 0x00) (v.length + sp.length)) := by
  constructor
  · rintro ⟨p, h⟩
    by_cases hv : v = []
    · exact .inl hv
    right
    rcases buffer_cases v hv with rfl | ⟨L, rest, rfl, hl⟩ | ⟨rest, rfl⟩ |
        ⟨L, body, ck, tail, rfl, hl⟩ | ⟨b, rest, rfl, hb⟩ | ⟨b, rest, rfl, hb⟩
    · rw [decode_sof_short] at h; cases h
    · rw [decode_incomplete L rest sp hl] at h; cases h
    · rw [decode_zero_length] at h; cases h
    · right
      rw [decode_complete L ck body tail sp hl] at h
      split at h
      · rename_i hck
        refine ⟨body, 0x01 :: L :: (body ++ [ck]), tail, by simp, ⟨L, ck, rfl, hl, hck⟩, ?_⟩
        have e : (0x01 :: L :: (body ++ ck :: tail)).set
            ((0x01 :: L :: (body ++ [ck])).length - 1) 0x00 =
            0x01 :: L :: (body ++ 0x00 :: tail) := by simp
        rw [e]
        have hn := newMessage_ok_iff ⟨0x01 :: L :: (body ++ 0x00 :: tail), sp⟩
        apply Classical.byContradiction
        intro hE
        have hE' : ¬ Explodes (0x01 :: L :: (body ++ 0x00 :: tail))
            (Slice.cap ⟨0x01 :: L :: (body ++ 0x00 :: tail), sp⟩) := by
          simpa [Slice.cap] using hE
        obtain ⟨r, hr⟩ := hn.2 hE'
        rw [hr] at h
        cases h
      · cases h
    · left
      refine ⟨b, rest, rfl, hb, ?_⟩
      rw [decode_ctrl b rest sp hb] at h
      apply Classical.byContradiction
      intro hE
      obtain ⟨r, hr⟩ := (newMessage_ok_iff ⟨b :: rest, sp⟩).2 hE
      rw [hr] at h
      cases h
    · rw [decode_junk b rest sp hb] at h; cases h
  · rintro (rfl | ⟨b, rest, rfl, hb, hE⟩ | ⟨body, f, tail, rfl, ⟨L, ck, rfl, hl, hck⟩, hE⟩)
    · exact ⟨_, decode_nil sp⟩
    · rw [decode_ctrl b rest sp hb]
      cases hm : newMessage ⟨b :: rest, sp⟩ with
      | error p => exact ⟨p, rfl⟩
      | ok r => exact absurd hE ((newMessage_ok_iff ⟨b :: rest, sp⟩).1 ⟨r, hm⟩)
    · have e : 0x01 :: L :: (body ++ [ck]) ++ tail = 0x01 :: L :: (body ++ ck :: tail) := by simp
      rw [e, decode_complete L ck body tail sp hl, if_pos hck]
      cases hm : newMessage ⟨0x01 :: L :: (body ++ 0x00 :: tail), sp⟩ with
      | error p => exact ⟨p, rfl⟩
      | ok r =>
        have := (newMessage_ok_iff _).1 ⟨r, hm⟩
        refine absurd ?_ this
        simpa [Slice.cap] using hE

/-- C06, what holds: `Decode` does not panic on a non-empty buffer that is a lone control byte, does
not start with a start or control byte, is an incomplete frame or has a wrong checksum, nor on a
frame with a sane body followed by anything. (Missing for the full property: the buffers of
`C06_violated_panics`; `C06_panic_iff` lists them all.) -/
theorem C06_no_panic_partial (body f tail sp : List UInt8) (hf : IsFrame body f)
    (hs : SaneBody body) : ∃ r, decode ⟨f ++ tail, sp⟩ = .ok r := by
  obtain ⟨L, ck, rfl, hl, hck⟩ := hf
  have e : 0x01 :: L :: (body ++ [ck]) ++ tail = 0x01 :: L :: (body ++ ck :: tail) := by simp
  rw [e, decode_complete L ck body tail sp hl, if_pos hck]
  have : ∃ r, newMessage ⟨0x01 :: L :: (body ++ 0x00 :: tail), sp⟩ = .ok r := by
    rw [newMessage_ok_iff]
    rcases hs with ⟨ty, rx, node, n, rest, rfl, h1, h2, h3⟩ | ⟨ty, a, b, n, rest, rfl, h1, h2⟩ |
      ⟨ty, rest, rfl, h1⟩ | ⟨ty, fn, rest, rfl, h1, h2, h3⟩
    · simp [Explodes, Slice.cap]; omega
    · simp [Explodes, Slice.cap]; omega
    · simp [Explodes, Slice.cap]
    · simp [Explodes, Slice.cap, h1, h2]
  obtain ⟨r, hr⟩ := this
  rw [hr]
  exact ⟨_, rfl⟩

/-- C06, the other harmless buffers. -/
theorem C06_no_panic_other_partial (v sp : List UInt8) (hv : v ≠ [])
    (h1 : v.length = 1 ∨ (∀ b rest, v = b :: rest → b ≠ 0x06 ∧ b ≠ 0x15 ∧ b ≠ 0x18))
    (h2 : ∀ body f tail, v = f ++ tail → ¬ IsFrame body f) : ∃ r, decode ⟨v, sp⟩ = .ok r := by
  cases hd : decode ⟨v, sp⟩ with
  | ok r => exact ⟨r, rfl⟩
  | error p =>
    exfalso
    rcases (C06_panic_iff v sp).1 ⟨p, hd⟩ with h | ⟨b, rest, rfl, hb, hE⟩ | ⟨body, f, tail, h, h', -⟩
    · exact hv h
    · rcases h1 with hlen | hne
      · have : rest = [] := by simpa using hlen
        subst this
        simp [Explodes] at hE
      · have := hne b rest rfl
        rcases hb with rfl | rfl | rfl <;> simp at this
    · exact h2 body f tail h h'

example : SaneBody [0x00, 0x04, 0x00, 0x02, 0x03, 0x25, 0x03, 0xFF] :=
  .inl ⟨0x00, 0x00, 0x02, 0x03, [0x25, 0x03, 0xFF], rfl, by decide, by decide, by decide⟩

end Verif.Props
