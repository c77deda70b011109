import Verif.Lemmas.Decode

set_option linter.unusedSimpArgs false

namespace Verif.Lemmas

open Verif.Go Verif.Model Verif.Spec

theorem bind_ok {α β : Type} (a : α) (f : α → Res β) : (Except.ok a >>= f : Res β) = f a := rfl
theorem bind_err {α β : Type} (p : Panic) (f : α → Res β) :
    (Except.error p >>= f : Res β) = .error p := rfl

/-- `7 + n` in `byte` arithmetic. -/
theorem seven_add (n : UInt8) : (7 + n).toNat = if n.toNat < 249 then 7 + n.toNat else n.toNat - 249 := by
  have h := n.toNat_lt
  have : (7 + n).toNat = (7 + n.toNat) % 256 := by simp [UInt8.toNat_add]
  rw [this]
  split <;> omega

theorem sub_ok {s : Slice} {lo hi : Nat} (h : lo ≤ hi ∧ hi ≤ s.cap) :
    s.sub lo hi = .ok ⟨((s.vis ++ s.spare).take hi).drop lo, (s.vis ++ s.spare).drop hi⟩ := by
  simp [Slice.sub, h]

theorem sub_err {s : Slice} {lo hi : Nat} (h : ¬ (lo ≤ hi ∧ hi ≤ s.cap)) :
    s.sub lo hi = .error .slice := by
  simp only [Slice.sub, if_neg h]

theorem sub_byte_ok_iff (s : Slice) (n : UInt8) :
    (∃ r, s.sub 7 (7 + n).toNat = .ok r) ↔ (n.toNat ≤ 248 ∧ 7 + n.toNat ≤ s.cap) := by
  rw [seven_add]
  constructor
  · rintro ⟨r, hr⟩
    by_cases h : 7 ≤ (if n.toNat < 249 then 7 + n.toNat else n.toNat - 249) ∧
        (if n.toNat < 249 then 7 + n.toNat else n.toNat - 249) ≤ s.cap
    · have hn := n.toNat_lt
      split at h <;> omega
    · rw [sub_err h] at hr; cases hr
  · rintro ⟨h1, h2⟩
    rw [if_pos (by omega)]
    exact ⟨_, sub_ok ⟨by omega, h2⟩⟩

theorem sub_byte_len {s r : Slice} {n : UInt8} (h : s.sub 7 (7 + n).toNat = .ok r) :
    r.vis.length = n.toNat := by
  have h1 := (sub_byte_ok_iff s n).1 ⟨r, h⟩
  rw [seven_add, if_pos (by omega), sub_ok ⟨by omega, h1.2⟩] at h
  injection h with h
  subst h
  have := h1.2
  simp [Slice.cap] at this ⊢
  omega

theorem newACH_ok_iff (d : Slice) : (∃ r, newACH d = .ok r) ↔ 2 ≤ d.vis.length := by
  match d with
  | ⟨[], sp⟩ => simp [newACH, Slice.get, bind, Except.bind]
  | ⟨[a], sp⟩ => simp [newACH, Slice.get, bind, Except.bind]
  | ⟨a :: b :: r, sp⟩ =>
    simp only [newACH, Slice.get, bind, Except.bind, pure, Except.pure, Slice.fromIdx, Slice.len,
      List.length_cons]
    simp
    cases newReport a b r <;> simp

theorem bind_eq_ok {α β : Type} {x : Res α} {f : α → Res β} {r : β} :
    (x >>= f) = .ok r ↔ ∃ a, x = .ok a ∧ f a = .ok r := by
  cases x with
  | error p => simp [bind_err]
  | ok a => simp [bind_ok]

theorem setBool_length {a r : List Bool} {i : Nat} {v : Bool} (h : setBool a i v = .ok r) :
    r.length = a.length := by
  unfold setBool at h
  split at h
  · injection h with h; subst h; simp
  · cases h

theorem setBool_lt {a r : List Bool} {i : Nat} {v : Bool} (h : setBool a i v = .ok r) :
    i < a.length := by
  unfold setBool at h
  split at h
  · assumption
  · cases h

theorem discSetByte_ok_iff (a : List Bool) (i : Nat) (b : UInt8) :
    (∃ r, discSetByte a i b = .ok r) ↔ i * 8 + 7 < a.length := by
  by_cases h : i * 8 + 7 < a.length
  · have h0 : i * 8 < a.length := by omega
    have h1 : i * 8 + 1 < a.length := by omega
    have h2 : i * 8 + 2 < a.length := by omega
    have h3 : i * 8 + 3 < a.length := by omega
    have h4 : i * 8 + 4 < a.length := by omega
    have h5 : i * 8 + 5 < a.length := by omega
    have h6 : i * 8 + 6 < a.length := by omega
    simp [discSetByte, setBool, bind, Except.bind, pure, Except.pure, h0, h1, h2, h3, h4, h5, h6, h]
  · simp only [h, iff_false]
    rintro ⟨r, hr⟩
    unfold discSetByte at hr
    obtain ⟨a0, h0, hr⟩ := bind_eq_ok.1 hr
    obtain ⟨a1, h1, hr⟩ := bind_eq_ok.1 hr
    obtain ⟨a2, h2, hr⟩ := bind_eq_ok.1 hr
    obtain ⟨a3, h3, hr⟩ := bind_eq_ok.1 hr
    obtain ⟨a4, h4, hr⟩ := bind_eq_ok.1 hr
    obtain ⟨a5, h5, hr⟩ := bind_eq_ok.1 hr
    obtain ⟨a6, h6, hr⟩ := bind_eq_ok.1 hr
    have := setBool_lt hr
    rw [setBool_length h6, setBool_length h5, setBool_length h4, setBool_length h3,
      setBool_length h2, setBool_length h1, setBool_length h0] at this
    exact h this

theorem discSetByte_eq (a : List Bool) (i : Nat) (b : UInt8) (h : i * 8 + 7 < a.length) :
    discSetByte a i b = .ok
      ((((((((a.set (i * 8) (b &&& 0x01 != 0)).set (i * 8 + 1) (b &&& 0x02 != 0)).set
        (i * 8 + 2) (b &&& 0x04 != 0)).set (i * 8 + 3) (b &&& 0x08 != 0)).set
        (i * 8 + 4) (b &&& 0x10 != 0)).set (i * 8 + 5) (b &&& 0x20 != 0)).set
        (i * 8 + 6) (b &&& 0x40 != 0)).set (i * 8 + 7) (b &&& 0x80 != 0)) := by
  have h0 : i * 8 < a.length := by omega
  have h1 : i * 8 + 1 < a.length := by omega
  have h2 : i * 8 + 2 < a.length := by omega
  have h3 : i * 8 + 3 < a.length := by omega
  have h4 : i * 8 + 4 < a.length := by omega
  have h5 : i * 8 + 5 < a.length := by omega
  have h6 : i * 8 + 6 < a.length := by omega
  simp [discSetByte, setBool, bind, Except.bind, pure, Except.pure, h0, h1, h2, h3, h4, h5, h6, h]

theorem discSetByte_length {a r : List Bool} {i : Nat} {b : UInt8}
    (h : discSetByte a i b = .ok r) : r.length = a.length := by
  have hi := (discSetByte_ok_iff a i b).1 ⟨r, h⟩
  rw [discSetByte_eq a i b hi] at h
  injection h with h; subst h; simp

theorem discLoop_ok_iff (l : List UInt8) (a : List Bool) (i : Nat) (hi : i * 8 ≤ a.length) :
    (∃ r, discLoop a i l = .ok r) ↔ (i + l.length) * 8 ≤ a.length := by
  induction l generalizing a i with
  | nil => simp [discLoop, hi]
  | cons b r ih =>
    simp only [discLoop, List.length_cons]
    by_cases h : i * 8 + 7 < a.length
    · obtain ⟨a', ha'⟩ := (discSetByte_ok_iff a i b).2 h
      have hl := discSetByte_length ha'
      rw [ha', bind_ok, ih a' (i + 1) (by omega), hl]
      have : i + 1 + r.length = i + (r.length + 1) := by omega
      rw [this]
    · have : ¬ ∃ r, discSetByte a i b = .ok r := fun hh => h ((discSetByte_ok_iff a i b).1 hh)
      cases hd : discSetByte a i b with
      | ok x => exact absurd ⟨x, hd⟩ this
      | error p =>
        rw [bind_err]
        simp
        omega

theorem newDiscoverdNodes_ok_iff (d : List UInt8) :
    (∃ r, newDiscoverdNodes d = .ok r) ↔ d.length ≤ 29 := by
  unfold newDiscoverdNodes
  split
  · constructor
    · intro _; omega
    · intro _; exact ⟨_, rfl⟩
  · have := discLoop_ok_iff d (List.replicate 232 false) 0
      (by rw [Nat.zero_mul]; exact Nat.zero_le _)
    rw [List.length_replicate, Nat.zero_add] at this
    constructor
    · rintro ⟨r, hr⟩
      cases hl : discLoop (List.replicate 232 false) 0 d with
      | ok a =>
        have := this.1 ⟨a, hl⟩; omega
      | error p => rw [hl, bind_err] at hr; cases hr
    · intro h
      obtain ⟨a, ha⟩ := this.2 (by omega)
      rw [ha]; exact ⟨_, rfl⟩

theorem getElem?_of_lt {v : List UInt8} {i : Nat} (h : i < v.length) : ∃ b, v[i]? = some b :=
  ⟨v[i], by simp [h]⟩

/-- The header bytes of a message of at least four bytes. -/
theorem newMessage_header (d : Slice) (h : 4 ≤ d.vis.length) :
    ∃ a b c e r, d.vis = a :: b :: c :: e :: r := by
  match d, h with
  | ⟨a :: b :: c :: e :: r, sp⟩, _ => exact ⟨a, b, c, e, r, rfl⟩

theorem newMessage_ok_iff (d : Slice) :
    (∃ r, newMessage d = .ok r) ↔ ¬ Explodes d.vis d.cap := by
  match d with
  | ⟨[], sp⟩ => simp [newMessage, Slice.get, bind, Except.bind, Explodes]
  | ⟨[a], sp⟩ =>
    simp [newMessage, Slice.get, bind, Except.bind, Explodes, Slice.len, pure, Except.pure]
  | ⟨[a, b], sp⟩ =>
    simp [newMessage, Slice.get, bind, Except.bind, Explodes, Slice.len, pure, Except.pure]
  | ⟨[a, b, c], sp⟩ =>
    simp [newMessage, Slice.get, bind, Except.bind, Explodes, Slice.len, pure, Except.pure]
  | ⟨a :: b :: c :: fn :: r, sp⟩ =>
    have hlen : ¬ (Slice.len ⟨a :: b :: c :: fn :: r, sp⟩ ≤ 1) := by simp [Slice.len]
    have g0 : Slice.get ⟨a :: b :: c :: fn :: r, sp⟩ 0 = .ok a := rfl
    have g1 : Slice.get ⟨a :: b :: c :: fn :: r, sp⟩ 1 = .ok b := rfl
    have g2 : Slice.get ⟨a :: b :: c :: fn :: r, sp⟩ 2 = .ok c := rfl
    have g3 : Slice.get ⟨a :: b :: c :: fn :: r, sp⟩ 3 = .ok fn := rfl
    have f4 : Slice.fromIdx ⟨a :: b :: c :: fn :: r, sp⟩ 4 = .ok ⟨r, sp⟩ :=
      fromIdx_ok (by simp)
    unfold newMessage
    simp only [g0, g1, g2, g3, bind_ok, if_neg hlen]
    by_cases h4 : fn = 0x04
    · subst h4
      have e1 : (0x04 : UInt8) = fnApplicationCommandHandler := rfl
      rw [if_pos e1]
      match r with
      | [] => simp [Slice.get, bind, Except.bind, Explodes]
      | [x] => simp [Slice.get, bind, Except.bind, Explodes]
      | [x, y] => simp [Slice.get, bind, Except.bind, Explodes]
      | x :: node :: n :: t =>
        have g5 : Slice.get ⟨a :: b :: c :: 0x04 :: x :: node :: n :: t, sp⟩ 5 = .ok node := rfl
        have g6 : Slice.get ⟨a :: b :: c :: 0x04 :: x :: node :: n :: t, sp⟩ 6 = .ok n := rfl
        simp only [g5, g6, bind_ok]
        have hE : Explodes (a :: b :: c :: 0x04 :: x :: node :: n :: t)
            (Slice.cap ⟨a :: b :: c :: 0x04 :: x :: node :: n :: t, sp⟩) ↔
            (249 ≤ n.toNat ∨ Slice.cap ⟨a :: b :: c :: 0x04 :: x :: node :: n :: t, sp⟩ < 7 + n.toNat
              ∨ n.toNat < 2) := by
          simp [Explodes]
        rw [hE]
        cases hs : Slice.sub ⟨a :: b :: c :: 0x04 :: x :: node :: n :: t, sp⟩ 7 (7 + n).toNat with
        | error p =>
          have : ¬ (n.toNat ≤ 248 ∧
              7 + n.toNat ≤ Slice.cap ⟨a :: b :: c :: 0x04 :: x :: node :: n :: t, sp⟩) := by
            intro hh
            obtain ⟨r, hr⟩ := (sub_byte_ok_iff _ n).2 hh
            rw [hs] at hr; cases hr
          simp [bind_err]; omega
        | ok part =>
          have h1 := (sub_byte_ok_iff _ n).1 ⟨part, hs⟩
          have h2 := sub_byte_len hs
          rw [bind_ok]
          cases ha : newACH part with
          | error p =>
            have : ¬ 2 ≤ part.vis.length := by
              intro hh
              obtain ⟨r, hr⟩ := (newACH_ok_iff part).2 hh
              rw [ha] at hr; cases hr
            simp [bind_err]; omega
          | ok q =>
            have := (newACH_ok_iff part).1 ⟨q, ha⟩
            rw [bind_ok]
            constructor
            · intro _; omega
            · intro _; cases q <;> exact ⟨_, rfl⟩
    · have e1 : ¬ fn = fnApplicationCommandHandler := h4
      rw [if_neg e1]
      by_cases h2 : fn = 0x02
      · subst h2
        have e2 : (0x02 : UInt8) = fnDiscoveryNodes := rfl
        rw [if_pos e2]
        match r with
        | [] => simp [Slice.get, bind, Except.bind, Explodes]
        | [x] => simp [Slice.get, bind, Except.bind, Explodes]
        | [x, y] => simp [Slice.get, bind, Except.bind, Explodes]
        | x :: node :: n :: t =>
          have g6 : Slice.get ⟨a :: b :: c :: 0x02 :: x :: node :: n :: t, sp⟩ 6 = .ok n := rfl
          simp only [g6, bind_ok]
          have hE : Explodes (a :: b :: c :: 0x02 :: x :: node :: n :: t)
              (Slice.cap ⟨a :: b :: c :: 0x02 :: x :: node :: n :: t, sp⟩) ↔
              (249 ≤ n.toNat ∨
                Slice.cap ⟨a :: b :: c :: 0x02 :: x :: node :: n :: t, sp⟩ < 7 + n.toNat
                ∨ 29 < n.toNat) := by
            simp [Explodes]
          rw [hE]
          cases hs : Slice.sub ⟨a :: b :: c :: 0x02 :: x :: node :: n :: t, sp⟩ 7 (7 + n).toNat with
          | error p =>
            have : ¬ (n.toNat ≤ 248 ∧
                7 + n.toNat ≤ Slice.cap ⟨a :: b :: c :: 0x02 :: x :: node :: n :: t, sp⟩) := by
              intro hh
              obtain ⟨r, hr⟩ := (sub_byte_ok_iff _ n).2 hh
              rw [hs] at hr; cases hr
            simp [bind_err]; omega
          | ok part =>
            have h1 := (sub_byte_ok_iff _ n).1 ⟨part, hs⟩
            have h2 := sub_byte_len hs
            rw [bind_ok]
            cases ha : newDiscoverdNodes part.vis with
            | error p =>
              have : ¬ part.vis.length ≤ 29 := by
                intro hh
                obtain ⟨r, hr⟩ := (newDiscoverdNodes_ok_iff part.vis).2 hh
                rw [ha] at hr; cases hr
              simp [bind_err]; omega
            | ok q =>
              have := (newDiscoverdNodes_ok_iff part.vis).1 ⟨q, ha⟩
              rw [bind_ok]
              constructor
              · intro _; omega
              · intro _; cases q <;> exact ⟨_, rfl⟩
      · have e2 : ¬ fn = fnDiscoveryNodes := h2
        rw [if_neg e2]
        have hE : ¬ Explodes (a :: b :: c :: fn :: r) (Slice.cap ⟨a :: b :: c :: fn :: r, sp⟩) := by
          simp [Explodes, h4, h2]
        simp only [hE, not_false_eq_true, iff_true, f4, bind_ok]
        split
        · cases newProtocolInfo r <;> exact ⟨_, rfl⟩
        · exact ⟨_, rfl⟩

/-! ### errors of the decoders are never checksum errors -/

theorem map_err {α β : Type} {x : GoRet α} {f : α → β} {e : Err} (h : x.map f = .error e) :
    x = .error e := by
  cases x with
  | error e' => cases h; rfl
  | ok a => cases h

theorem newReport_err (c k : UInt8) (d : List UInt8) (e : Err) (h : newReport c k d = .error e) :
    e = .length ∨ e = .unknown := by
  unfold newReport at h
  split at h
  · split at h
    · have h := map_err h
      unfold newAlarm at h
      split at h <;> cases h; exact .inl rfl
    · cases h; exact .inr rfl
  split at h
  · split at h
    · have h := map_err h
      unfold newManufacturerSpecific at h
      split at h <;> cases h; exact .inl rfl
    · cases h; exact .inr rfl
  split at h
  · split at h
    · have h := map_err h
      unfold newMultiChannelEndpoints at h
      split at h <;> cases h; exact .inl rfl
    · cases h; exact .inr rfl
  split at h
  · split at h
    · have h := map_err h
      unfold newSensorMultiLevel at h
      split at h
      · simp only at h
        split at h <;> cases h; exact .inl rfl
      · cases h; exact .inl rfl
    · cases h; exact .inr rfl
  split at h
  · split at h
    · split at h
      · unfold newSwitchBinaryV1 at h
        split at h <;> cases h; exact .inl rfl
      · split at h
        · unfold newSwitchBinaryV2 at h
          split at h <;> cases h; exact .inl rfl
        · cases h; exact .inr rfl
    · cases h; exact .inr rfl
  split at h
  · split at h
    · split at h
      · unfold newSwitchMultilevelV1 at h
        split at h <;> cases h; exact .inl rfl
      · split at h
        · unfold newSwitchMultilevelV4 at h
          split at h <;> cases h; exact .inl rfl
        · cases h; exact .inr rfl
    · cases h; exact .inr rfl
  split at h
  · cases h
  · cases h; exact .inr rfl

theorem newACH_err {d : Slice} {e : Err} (h : newACH d = .ok (.error e)) :
    e = .length ∨ e = .unknown := by
  unfold newACH at h
  obtain ⟨c, -, h⟩ := bind_eq_ok.1 h
  obtain ⟨k, -, h⟩ := bind_eq_ok.1 h
  obtain ⟨r, -, h⟩ := bind_eq_ok.1 h
  cases hr : newReport c k r.vis with
  | ok x => rw [hr] at h; cases h
  | error e' => rw [hr] at h; cases h; exact newReport_err _ _ _ _ hr

theorem newDiscoverdNodes_err {d : List UInt8} {e : Err}
    (h : newDiscoverdNodes d = .ok (.error e)) : e = .length := by
  unfold newDiscoverdNodes at h
  split at h
  · cases h; rfl
  · obtain ⟨a, -, h⟩ := bind_eq_ok.1 h
    cases h

theorem newProtocolInfo_err {d : List UInt8} {e : Err} (h : newProtocolInfo d = .error e) :
    e = .length := by
  unfold newProtocolInfo at h
  split at h <;> cases h; rfl

theorem newMessage_err (d : Slice) (e : Err) (h : newMessage d = .ok (.error e)) :
    e = .length ∨ e = .unknown ∨ e = .dropping := by
  unfold newMessage at h
  obtain ⟨b0, -, h⟩ := bind_eq_ok.1 h
  split at h
  · cases h
  obtain ⟨b1, -, h⟩ := bind_eq_ok.1 h
  obtain ⟨b2, -, h⟩ := bind_eq_ok.1 h
  obtain ⟨b3, -, h⟩ := bind_eq_ok.1 h
  split at h
  · obtain ⟨_, -, h⟩ := bind_eq_ok.1 h
    obtain ⟨_, -, h⟩ := bind_eq_ok.1 h
    obtain ⟨_, -, h⟩ := bind_eq_ok.1 h
    obtain ⟨r, hr, h⟩ := bind_eq_ok.1 h
    cases r with
    | ok x => cases h
    | error e' => cases h; rcases newACH_err hr with h | h <;> simp [h]
  split at h
  · obtain ⟨_, -, h⟩ := bind_eq_ok.1 h
    obtain ⟨_, -, h⟩ := bind_eq_ok.1 h
    obtain ⟨r, hr, h⟩ := bind_eq_ok.1 h
    cases r with
    | ok x => cases h
    | error e' => cases h; simp [newDiscoverdNodes_err hr]
  split at h
  · obtain ⟨r, -, h⟩ := bind_eq_ok.1 h
    cases hr : newProtocolInfo r.vis with
    | ok x => rw [hr] at h; cases h
    | error e' => rw [hr] at h; cases h; simp [newProtocolInfo_err hr]
  · obtain ⟨_, -, h⟩ := bind_eq_ok.1 h
    cases h; simp

theorem newMessage_err_ne_checksum (d : Slice) (h : newMessage d = .ok (.error .checksum)) :
    False := by
  rcases newMessage_err d _ h with h | h | h <;> cases h

end Verif.Lemmas
