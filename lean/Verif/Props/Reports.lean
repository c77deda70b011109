import Verif.Lemmas.Reports

/-
C13–C22: decoding of protocol info, discovery bitmaps and reports.
-/

set_option linter.unusedSimpArgs false

namespace Verif.Props

open Verif.Go Verif.Model Verif.Spec Verif.Lemmas

/-! ## C13 -/

/-- C13.  Six or more bytes: every field sits at its bit position; fewer: error. -/
theorem C13_protocol_info (d : List UInt8) :
    (d.length < 6 → newProtocolInfo d = .error .length) ∧
    ∀ h : 6 ≤ d.length, ∃ p, newProtocolInfo d = .ok p ∧
      p.listening = bit d[0] 7 ∧ p.routing = bit d[0] 6 ∧
      p.version.toNat = d[0].toNat % 8 + 1 ∧
      p.maxBaud = (if d[0].toNat / 8 % 8 = 2 then 40000 else 9600) ∧
      p.flirs = (bit d[1] 5 || bit d[1] 6) ∧ p.beaming = bit d[1] 4 ∧ p.security = bit d[1] 0 ∧
      p.basic = d[3] ∧ p.generic = d[4] ∧ p.specific = d[5] := by
  constructor
  · intro h
    match d, h with
    | [], _ | [_], _ | [_, _], _ | [_, _, _], _ | [_, _, _, _], _ | [_, _, _, _, _], _ => rfl
  · intro h
    match d, h with
    | d0 :: d1 :: d2 :: d3 :: d4 :: d5 :: r, _ =>
      refine ⟨_, rfl, ?_⟩
      have h0 : (d0 &&& 0x80 != 0) = bit d0 7 ∧ (d0 &&& 0x40 != 0) = bit d0 6 ∧
          ((d0 &&& 0x07) + 1).toNat = d0.toNat % 8 + 1 ∧
          (if d0 &&& 0x38 = 0x10 then 40000 else 9600) =
            (if d0.toNat / 8 % 8 = 2 then 40000 else 9600) :=
        u8_forall (P := fun d0 => (d0 &&& 0x80 != 0) = bit d0 7 ∧ (d0 &&& 0x40 != 0) = bit d0 6 ∧
          ((d0 &&& 0x07) + 1).toNat = d0.toNat % 8 + 1 ∧
          (if d0 &&& 0x38 = 0x10 then 40000 else 9600) =
            (if d0.toNat / 8 % 8 = 2 then 40000 else 9600)) (by decide +kernel) d0
      have h1 : (d1 &&& 0x60 != 0) = (bit d1 5 || bit d1 6) ∧ (d1 &&& 0x10 != 0) = bit d1 4 ∧
          (d1 &&& 0x01 != 0) = bit d1 0 :=
        u8_forall (P := fun d1 => (d1 &&& 0x60 != 0) = (bit d1 5 || bit d1 6) ∧
          (d1 &&& 0x10 != 0) = bit d1 4 ∧ (d1 &&& 0x01 != 0) = bit d1 0) (by decide +kernel) d1
      exact ⟨h0.1, h0.2.1, h0.2.2.1, h0.2.2.2, h1.1, h1.2.1, h1.2.2, rfl, rfl, rfl⟩

/-- C13 through the whole decoder: a received protocol-info frame yields exactly the decoding of
its own data bytes, whatever follows in the buffer. -/
theorem C13_through_decode (ty : UInt8) (rest f tail sp : List UInt8)
    (hf : IsFrame (ty :: 0x41 :: rest) f) (hr : 6 ≤ rest.length) :
    ∃ o s p, decode ⟨f ++ tail, sp⟩ = .ok (o, s) ∧ newProtocolInfo rest = .ok p ∧
      o.length = f.length ∧ o.err = none ∧
      o.msg = some { length := f[1]'(by obtain ⟨_, _, rfl, _⟩ := hf; simp), messageType := ty,
                     function := 0x41, nodeID := 0, startByte := 0x01, data := .info p } := by
  obtain ⟨L, ck, rfl, hl, hck⟩ := hf
  match rest, hr with
  | a :: b :: c :: d :: e :: g :: r, _ =>
  have hd := decode_complete L ck (ty :: 0x41 :: a :: b :: c :: d :: e :: g :: r) tail sp hl
  rw [if_pos hck] at hd
  have e1 : (0x01 :: L :: ((ty :: 0x41 :: a :: b :: c :: d :: e :: g :: r) ++ [ck])) ++ tail =
      0x01 :: L :: ((ty :: 0x41 :: a :: b :: c :: d :: e :: g :: r) ++ ck :: tail) := by simp
  rw [e1, hd]
  obtain ⟨p, hp, -⟩ := (C13_protocol_info (a :: b :: c :: d :: e :: g :: r)).2 (by simp)
  have hp' : newProtocolInfo (a :: b :: c :: d :: e :: g :: (r ++ 0x00 :: tail)) = .ok p := hp
  have hm : newMessage ⟨0x01 :: L :: ((ty :: 0x41 :: a :: b :: c :: d :: e :: g :: r) ++
      0x00 :: tail), sp⟩ = .ok (.ok ⟨L, ty, 0x41, 0, 0x01, .info p⟩) := by
    have f4 : Slice.fromIdx ⟨0x01 :: L :: ((ty :: 0x41 :: a :: b :: c :: d :: e :: g :: r) ++
        0x00 :: tail), sp⟩ 4 = .ok ⟨a :: b :: c :: d :: e :: g :: (r ++ 0x00 :: tail), sp⟩ :=
      fromIdx_ok (by simp)
    simp [newMessage, Slice.get, Slice.len, bind_ok, fnApplicationCommandHandler, fnDiscoveryNodes,
      fnGetNodeProtocolInfo, pure, Except.pure, bind, Except.bind, Slice.fromIdx, hp']
  rw [hm]
  refine ⟨_, _, p, rfl, hp, ?_, rfl, rfl⟩
  simp at hl
  simp; omega

example : (newProtocolInfo [0xD3, 0x9C, 0x00, 0x04, 0x10, 0x01]).toOption.map (·.listening) =
    some true := by decide

/-! ## C14 -/

/-- C14.  Bitmaps of 6 … 29 bytes: entry `k` of the 232-entry table is set iff bit `k mod 8` of
byte `k / 8` is; shorter bitmaps are an error, longer ones panic. -/
theorem C14_discovery_bitmap (d : List UInt8) :
    (d.length < 6 → newDiscoverdNodes d = .ok (.error .length)) ∧
    (29 < d.length → ∃ p, newDiscoverdNodes d = .error p) ∧
    (6 ≤ d.length → d.length ≤ 29 → ∃ a, newDiscoverdNodes d = .ok (.ok a) ∧ a.length = 232 ∧
      ∀ k, a[k]? = some true ↔ ∃ b, d[k / 8]? = some b ∧ bit b (k % 8) = true) := by
  refine ⟨?_, ?_, ?_⟩
  · intro h; simp [newDiscoverdNodes, h]
  · intro h
    cases hd : newDiscoverdNodes d with
    | error p => exact ⟨p, rfl⟩
    | ok r => have := (newDiscoverdNodes_ok_iff d).1 ⟨r, hd⟩; omega
  · intro h1 h2
    obtain ⟨r, hr⟩ := (newDiscoverdNodes_ok_iff d).2 h2
    have hr0 := hr
    unfold newDiscoverdNodes at hr
    rw [if_neg (by omega)] at hr
    obtain ⟨a, ha, hr⟩ := bind_eq_ok.1 hr
    cases hr
    refine ⟨a, hr0, ?_, ?_⟩
    · rw [discLoop_length _ _ _ _ ha, List.length_replicate]
    · intro k
      rw [discLoop_getElem? _ _ _ _ k ha]
      by_cases hk : k / 8 < d.length
      · rw [if_pos ⟨by omega, by omega⟩]
        simp
      · rw [if_neg (by omega)]
        have hn : d[k / 8]? = none := List.getElem?_eq_none (by omega)
        rw [hn]
        constructor
        · intro hh
          rw [List.getElem?_replicate] at hh
          split at hh <;> simp at hh
        · rintro ⟨b, hb, -⟩; cases hb

/-- C14 through the whole decoder: a discovery frame whose bitmap length is announced correctly. -/
theorem C14_through_decode (ty v cap_ n : UInt8) (bm rest f tail sp : List UInt8)
    (hf : IsFrame (ty :: 0x02 :: v :: cap_ :: n :: (bm ++ rest)) f) (hn : n.toNat = bm.length)
    (h6 : 6 ≤ bm.length) (h29 : bm.length ≤ 29) :
    ∃ o s a m, decode ⟨f ++ tail, sp⟩ = .ok (o, s) ∧ newDiscoverdNodes bm = .ok (.ok a) ∧
      o.length = f.length ∧ o.msg = some m ∧ m.data = .nodes a := by
  obtain ⟨L, ck, rfl, hl, hck⟩ := hf
  have hd := decode_complete L ck (ty :: 0x02 :: v :: cap_ :: n :: (bm ++ rest)) tail sp hl
  rw [if_pos hck] at hd
  have e1 : (0x01 :: L :: ((ty :: 0x02 :: v :: cap_ :: n :: (bm ++ rest)) ++ [ck])) ++ tail =
      0x01 :: L :: ((ty :: 0x02 :: v :: cap_ :: n :: (bm ++ rest)) ++ ck :: tail) := by simp
  rw [e1, hd]
  obtain ⟨a, ha, -⟩ := (C14_discovery_bitmap bm).2.2 h6 h29
  have h7 : (7 + n).toNat = 7 + bm.length := by rw [seven_add, if_pos (by omega), hn]
  have hm : newMessage ⟨0x01 :: L :: ((ty :: 0x02 :: v :: cap_ :: n :: (bm ++ rest)) ++
      0x00 :: tail), sp⟩ = .ok (.ok ⟨L, ty, 0x02, 0, 0x01, .nodes a⟩) := by
    simp [newMessage, Slice.get, Slice.len, bind_ok, fnApplicationCommandHandler, fnDiscoveryNodes,
      fnGetNodeProtocolInfo, pure, Except.pure, bind, Except.bind, Slice.sub, h7, ha, Slice.cap,
      Nat.add_comm 7]
    rw [if_pos (by omega)]
    simp [ha]
  rw [hm]
  refine ⟨_, _, a, _, rfl, ha, ?_, rfl, rfl⟩
  simp at hl
  simp; omega

example : ∃ a, newDiscoverdNodes [0x05, 0, 0, 0, 0, 0x80] = .ok (.ok a) ∧ a[2]? = some true ∧
    a[47]? = some true := by
  obtain ⟨a, h1, -, h2⟩ := (C14_discovery_bitmap [0x05, 0, 0, 0, 0, 0x80]).2.2 (by simp) (by simp)
  exact ⟨a, h1, (h2 2).2 ⟨0x05, rfl, by decide⟩, (h2 47).2 ⟨0x80, rfl, by decide⟩⟩

/-! ## C86 -/

/-- C86: a received command frame decodes to its sender, its command class, its command and the report made of its
payload alone, whatever follows in the frame and in the buffer; a command without a report decodes to an error. -/
theorem C86_command_decoded (ty rx node n cmd cls : UInt8) (payload rest f tail sp : List UInt8)
    (hf : IsFrame (ty :: 0x04 :: rx :: node :: n :: cmd :: cls :: (payload ++ rest)) f)
    (hn : n.toNat = payload.length + 2) (hb : n.toNat ≤ 248) :
    ∃ o s, decode ⟨f ++ tail, sp⟩ = .ok (o, s) ∧ o.length = f.length ∧
      (∀ r, newReport cmd cls payload = .ok r → o.err = none ∧
        ∃ m a, o.msg = some m ∧ m.data = .ach a ∧ m.nodeID = node ∧ m.messageType = ty ∧ m.function = 0x04 ∧
          a.command = cmd ∧ a.class_ = cls ∧ a.report = r) ∧
      (∀ e, newReport cmd cls payload = .error e → o.err = some e ∧ o.msg = none) := by
  obtain ⟨L, ck, rfl, hl, hck⟩ := hf
  have hd := decode_complete L ck (ty :: 0x04 :: rx :: node :: n :: cmd :: cls :: (payload ++ rest)) tail sp hl
  rw [if_pos hck] at hd
  have e1 : (0x01 :: L :: ((ty :: 0x04 :: rx :: node :: n :: cmd :: cls :: (payload ++ rest)) ++ [ck])) ++ tail =
      0x01 :: L :: ((ty :: 0x04 :: rx :: node :: n :: cmd :: cls :: (payload ++ rest)) ++ ck :: tail) := by simp
  rw [e1, hd]
  have h7 : (7 + n).toNat = 7 + (payload.length + 2) := by rw [seven_add, if_pos (by omega), hn]
  have hs : ∃ sp', Slice.sub ⟨0x01 :: L :: ((ty :: 0x04 :: rx :: node :: n :: cmd :: cls :: (payload ++ rest)) ++
      0x00 :: tail), sp⟩ 7 (7 + n).toNat = .ok ⟨cmd :: cls :: payload, sp'⟩ := by
    simp [Slice.sub, h7, Slice.cap]
    rw [if_pos (by omega)]
    simp [show 7 + (payload.length + 2) = payload.length + 9 by omega]
  obtain ⟨sp', hs⟩ := hs
  have hlen : (L.toNat : Int) + 2 = ((0x01 :: L :: ((ty :: 0x04 :: rx :: node :: n :: cmd :: cls ::
      (payload ++ rest)) ++ [ck])).length : Int) := by simp at hl ⊢; omega
  cases hr : newReport cmd cls payload with
  | ok r =>
    have hm : newMessage ⟨0x01 :: L :: ((ty :: 0x04 :: rx :: node :: n :: cmd :: cls :: (payload ++ rest)) ++
        0x00 :: tail), sp⟩ = .ok (.ok ⟨L, ty, 0x04, node, 0x01, .ach ⟨cmd, cls, 0, r⟩⟩) := by
      unfold newMessage
      simp [Slice.get, Slice.len, bind_ok, fnApplicationCommandHandler, pure, Except.pure, bind, Except.bind]
      simp at hs
      rw [hs]
      simp [newACH, Slice.get, Slice.len, Slice.fromIdx, bind_ok, pure, Except.pure, bind, Except.bind, hr]
    rw [hm]
    refine ⟨_, _, rfl, hlen, fun r' h => ?_, fun e h => by simp at h⟩
    cases h
    exact ⟨rfl, _, _, rfl, rfl, rfl, rfl, rfl, rfl, rfl, rfl⟩
  | error e =>
    have hm : newMessage ⟨0x01 :: L :: ((ty :: 0x04 :: rx :: node :: n :: cmd :: cls :: (payload ++ rest)) ++
        0x00 :: tail), sp⟩ = .ok (.error e) := by
      unfold newMessage
      simp [Slice.get, Slice.len, bind_ok, fnApplicationCommandHandler, pure, Except.pure, bind, Except.bind]
      simp at hs
      rw [hs]
      simp [newACH, Slice.get, Slice.len, Slice.fromIdx, bind_ok, pure, Except.pure, bind, Except.bind, hr]
    rw [hm]
    refine ⟨_, _, rfl, hlen, fun r' h => by simp at h, fun e' h => ?_⟩
    cases h
    exact ⟨rfl, rfl⟩

theorem newACH_node {d : Slice} {f : ACH} (h : newACH d = .ok (.ok f)) : f.node = 0 := by
  unfold newACH at h
  simp only [bind, Except.bind, pure, Except.pure] at h
  repeat' split at h
  all_goals first
    | (cases h; done)
    | (cases h; rfl)

theorem newMessage_node {d : Slice} {m : Message} {a : ACH} (h : newMessage d = .ok (.ok m))
    (ha : m.data = .ach a) : a.node = 0 := by
  unfold newMessage at h
  simp only [bind, Except.bind, pure, Except.pure] at h
  repeat' split at h
  all_goals first
    | (cases h; done)
    | (cases h; cases ha; done)
    | (cases h; cases ha; rename_i hx; exact newACH_node hx)

/-- C86 is violated for the handler's own `Node` field: whatever the sender, it is zero. -/
theorem C86_violated_handler_node (v sp : List UInt8) (o : DecodeOut) (s : Slice) (m : Message) (a : ACH)
    (h : decode ⟨v, sp⟩ = .ok (o, s)) (hm : o.msg = some m) (ha : m.data = .ach a) : a.node = 0 := by
  unfold decode at h
  simp only [bind, Except.bind, pure, Except.pure] at h
  repeat' split at h
  all_goals first
    | (cases h; done)
    | (cases h; cases hm; done)
    | (cases h; cases hm; rename_i hx; exact newMessage_node hx ha)

/-- A switch report of node 7, with two more bytes in the frame. -/
example : IsFrame (0x00 :: 0x04 :: 0x00 :: 0x07 :: 0x03 :: 0x25 :: 0x03 :: ([0xFF] ++ [0x11, 0x22]))
      [0x01, 0x0B, 0x00, 0x04, 0x00, 0x07, 0x03, 0x25, 0x03, 0xFF, 0x11, 0x22, 0x1E] ∧
    (∃ r, newReport 0x25 0x03 [0xFF] = .ok r) ∧
    ∃ o s m a, decode ⟨[0x01, 0x0B, 0x00, 0x04, 0x00, 0x07, 0x03, 0x25, 0x03, 0xFF, 0x11, 0x22, 0x1E] ++ [0x01], []⟩ =
      .ok (o, s) ∧ o.msg = some m ∧ m.data = .ach a ∧ m.nodeID = 7 ∧ a.node = 0 :=
  ⟨⟨0x0B, 0x1E, rfl, by decide, by decide⟩, ⟨_, rfl⟩, _, _, _, _, rfl, rfl, rfl, rfl, rfl⟩

/-- A command without a report. -/
example : ∃ e, newReport 0x20 0x01 [0xFF] = .error e := ⟨_, rfl⟩

/-! ## C15 -/

/-- C15.  `reports.New` yields a report of kind `kd` exactly when class, command and length
announce that kind, and otherwise an error. -/
theorem C15_dispatch (c k : UInt8) (d : List UInt8) (kd : Kind) :
    (∃ r, newReport c k d = .ok r ∧ kindOf r = kd) ↔ Announces kd c k d := by
  have hA : Announces kd c k d ↔ AnnouncesBy c k d kd := announces_iff kd c k d
  rw [hA]
  rw [newReport_eq]
  unfold AnnouncesBy
  by_cases c1 : c = 0x71
  · simp only [if_pos c1]
    by_cases hk : k = 0x05
    · simp only [if_pos hk]; rw [newAlarm_kind]; exact and_comm
    · simp [if_neg hk]
  simp only [if_neg c1]
  by_cases c2 : c = 0x72
  · simp only [if_pos c2]
    by_cases hk : k = 0x05
    · simp only [if_pos hk]; rw [newManufacturerSpecific_kind]; exact and_comm
    · simp [if_neg hk]
  simp only [if_neg c2]
  by_cases c3 : c = 0x60
  · simp only [if_pos c3]
    by_cases hk : k = 0x08
    · simp only [if_pos hk]; rw [newMultiChannelEndpoints_kind]; exact and_comm
    · simp [if_neg hk]
  simp only [if_neg c3]
  by_cases c4 : c = 0x31
  · simp only [if_pos c4]
    by_cases hk : k = 0x05
    · simp only [if_pos hk]; rw [newSensorMultiLevel_kind]; exact and_comm
    · simp [if_neg hk]
  simp only [if_neg c4]
  by_cases c5 : c = 0x25
  · simp only [if_pos c5]
    by_cases hk : k = 0x03
    · simp only [if_pos hk]
      by_cases l1 : d.length = 1
      · obtain ⟨a, rfl⟩ := List.length_eq_one_iff.1 l1
        simp [newSwitchBinaryV1, kindOf, eq_comm]
      by_cases l3 : d.length = 3
      · match d, l3 with
        | [a, b, e], _ => simp [newSwitchBinaryV2, kindOf, eq_comm]
      · simp [l1, l3]
    · simp [if_neg hk]
  simp only [if_neg c5]
  by_cases c6 : c = 0x26
  · simp only [if_pos c6]
    by_cases hk : k = 0x03
    · simp only [if_pos hk]
      by_cases l1 : d.length = 1
      · obtain ⟨a, rfl⟩ := List.length_eq_one_iff.1 l1
        simp [newSwitchMultilevelV1, kindOf, eq_comm]
      by_cases l3 : d.length = 3
      · match d, l3 with
        | [a, b, e], _ => simp [newSwitchMultilevelV4, kindOf, eq_comm]
      · simp [l1, l3]
    · simp [if_neg hk]
  simp only [if_neg c6]
  by_cases c7 : c = 0x84
  · simp [c7, kindOf, eq_comm]
  · simp [c7]

/-- C15, errors: no kind announced, no report. -/
theorem C15_error (c k : UInt8) (d : List UInt8) :
    (∃ e, newReport c k d = .error e) ↔ ∀ kd, ¬ Announces kd c k d := by
  constructor
  · rintro ⟨e, he⟩ kd h
    obtain ⟨r, hr, -⟩ := (C15_dispatch c k d kd).2 h
    rw [he] at hr; cases hr
  · intro h
    cases hr : newReport c k d with
    | error e => exact ⟨e, rfl⟩
    | ok r => exact absurd ((C15_dispatch c k d (kindOf r)).1 ⟨r, hr, rfl⟩) (h _)

example : Announces .binaryV2 0x25 0x03 [0, 0xFF, 3] := ⟨.inl (by decide), rfl⟩

/-! ## C16 -/

/-- C16.  Exactly six-byte payloads are accepted; each id is a string of four lower-case
hexadecimal digits whose value is the corresponding big-endian pair of payload bytes. -/
theorem C16_manufacturer (d : List UInt8) :
    (d.length ≠ 6 → newManufacturerSpecific d = .error .length) ∧
    ∀ h : d.length = 6, ∃ m, newManufacturerSpecific d = .ok m ∧
      (∀ s ∈ [m.manufacturer, m.type, m.id], s.length = 4 ∧ ∀ c ∈ s, IsHexLower c) ∧
      hexNum m.manufacturer = d[0].toNat * 256 + d[1].toNat ∧
      hexNum m.type = d[2].toNat * 256 + d[3].toNat ∧
      hexNum m.id = d[4].toNat * 256 + d[5].toNat := by
  constructor
  · intro h
    unfold newManufacturerSpecific
    split
    · simp at h
    · rfl
  · intro h
    match d, h with
    | [a, b, c, e, f, g], _ =>
      refine ⟨_, rfl, ?_, hexNum_hex4 a b, hexNum_hex4 c e, hexNum_hex4 f g⟩
      intro s hs
      simp at hs
      rcases hs with rfl | rfl | rfl <;> exact ⟨rfl, hex4_lower _ _⟩

/-- C16, losslessness: different payloads have different identifications. -/
theorem C16_injective (d e : List UInt8) (m : ManufacturerSpecific)
    (hd : newManufacturerSpecific d = .ok m) (he : newManufacturerSpecific e = .ok m) : d = e := by
  by_cases h1 : d.length = 6
  · by_cases h2 : e.length = 6
    · obtain ⟨m1, g1, -, a1, a2, a3⟩ := (C16_manufacturer d).2 h1
      obtain ⟨m2, g2, -, b1, b2, b3⟩ := (C16_manufacturer e).2 h2
      rw [hd] at g1; cases g1
      rw [he] at g2; cases g2
      obtain ⟨d0, d1, d2, d3, d4, d5, rfl⟩ := length_six h1
      obtain ⟨e0, e1, e2, e3, e4, e5, rfl⟩ := length_six h2
      · clear hd he
        simp only [List.getElem_cons_zero, List.getElem_cons_succ] at a1 a2 a3 b1 b2 b3
        have hlt := fun b : UInt8 => b.toNat_lt
        have := hlt d0; have := hlt d1; have := hlt d2; have := hlt d3; have := hlt d4
        have := hlt d5; have := hlt e0; have := hlt e1; have := hlt e2; have := hlt e3
        have := hlt e4; have := hlt e5
        have i0 : d0.toNat = e0.toNat := by omega
        have i1 : d1.toNat = e1.toNat := by omega
        have i2 : d2.toNat = e2.toNat := by omega
        have i3 : d3.toNat = e3.toNat := by omega
        have i4 : d4.toNat = e4.toNat := by omega
        have i5 : d5.toNat = e5.toNat := by omega
        simp only [UInt8.toNat_inj] at i0 i1 i2 i3 i4 i5
        simp [i0, i1, i2, i3, i4, i5]
    · rw [(C16_manufacturer e).1 h2] at he; cases he
  · rw [(C16_manufacturer d).1 h1] at hd; cases hd

example : newManufacturerSpecific [0x01, 0x0f, 0x06, 0x00, 0x10, 0x00] =
    .ok ⟨"010f".toList, "0600".toList, "1000".toList⟩ := by decide

/-! ## C17 -/

/-- C17.  Sizes 1, 2, 4 with enough data: the value times `10^precision` is the two's complement
value of the next `size` bytes; type, scale, size and precision are the documented bit fields. -/
theorem C17_sensor_value (t c : UInt8) (rest : List UInt8)
    (hsz : c.toNat % 8 = 1 ∨ c.toNat % 8 = 2 ∨ c.toNat % 8 = 4)
    (hlen : c.toNat % 8 ≤ rest.length) :
    ∃ s v, newSensorMultiLevel (t :: c :: rest) = .ok s ∧
      TwosComplement (rest.take (c.toNat % 8)) v ∧
      s.value * (10 ^ (c.toNat / 32) : Nat) = v ∧
      s.valueType = t ∧ s.size.toNat = c.toNat % 8 ∧ s.scale.toNat = c.toNat / 8 % 4 ∧
      s.precision.toNat = c.toNat / 32 := by
  obtain ⟨f1, f2, f3⟩ := sensor_fields c
  have hok : newSensorMultiLevel (t :: c :: rest) = .ok
      { valueType := t, size := c &&& 0x07, scale := (c &&& 0x18) >>> 3,
        precision := (c &&& 0xE0) >>> 5,
        value := if (c &&& 0xE0) >>> 5 > 0 then
          ((sensorRaw (c &&& 0x07).toNat rest : Int) : Rat) / (10 ^ ((c &&& 0xE0) >>> 5).toNat : Nat)
          else ((sensorRaw (c &&& 0x07).toNat rest : Int) : Rat),
        typeString := sensorTypeString t,
        unit := (sensorUnit t.toNat ((c &&& 0x18) >>> 3).toNat).toList } := by
    unfold newSensorMultiLevel
    simp only
    rw [if_neg (by rw [f1]; omega)]
  refine ⟨_, sensorRaw (c.toNat % 8) rest, hok, sensorRaw_spec _ _ hsz hlen, ?_, rfl, f1, f2, f3⟩
  simp only [f1, f3]
  split
  · rw [Rat.div_mul_cancel]
    have : 0 < 10 ^ (c.toNat / 32) := Nat.pos_of_ne_zero (by simp)
    intro h
    have h' : (10 ^ (c.toNat / 32) : Nat) = 0 := by exact_mod_cast h
    omega
  · rename_i h
    have h0 : ((c &&& 0xE0) >>> 5).toNat = 0 := by
      have : ¬ 0 < ((c &&& 0xE0) >>> 5).toNat := h
      omega
    rw [f3] at h0
    rw [h0]
    simp

/-- C17, truncated payloads are an error. -/
theorem C17_truncated (d : List UInt8)
    (h : d.length < 2 ∨ ∃ t c rest, d = t :: c :: rest ∧ rest.length < c.toNat % 8) :
    newSensorMultiLevel d = .error .length := by
  unfold newSensorMultiLevel
  split
  · rename_i t c rest
    rcases h with h | ⟨t', c', rest', h, h2⟩
    · simp at h; omega
    · cases h
      simp only
      rw [if_pos (by rw [(sensor_fields c).1]; omega)]
  · rfl

example : (newSensorMultiLevel [0x01, 0x22, 0xFF, 0x9C]).toOption.map (·.value) =
    some (-10) := by decide +kernel

/-! ## C18 -/

/-- C18 is violated: size 3 is accepted, with value 0, whatever the three value bytes are. -/
theorem C18_violated_size3 :
    ∃ s, newSensorMultiLevel [0x01, 0x03, 0x12, 0x34, 0x56] = .ok s ∧ s.value = 0 :=
  ⟨_, rfl, by decide +kernel⟩

/-- C18, what the code does for every unsupported size: with enough bytes it succeeds with value 0,
with too few it fails. (Missing: the promised error.) -/
theorem C18_unsupported_partial (t c : UInt8) (rest : List UInt8)
    (hsz : ¬ (c.toNat % 8 = 1 ∨ c.toNat % 8 = 2 ∨ c.toNat % 8 = 4)) :
    (rest.length < c.toNat % 8 → newSensorMultiLevel (t :: c :: rest) = .error .length) ∧
    (c.toNat % 8 ≤ rest.length →
      ∃ s, newSensorMultiLevel (t :: c :: rest) = .ok s ∧ s.value = 0) := by
  refine ⟨fun h => C17_truncated _ (.inr ⟨t, c, rest, rfl, h⟩), ?_⟩
  intro h
  obtain ⟨f1, f2, f3⟩ := sensor_fields c
  have hr : sensorRaw (c &&& 0x07).toNat rest = 0 := by
    rw [f1]
    unfold sensorRaw
    split <;> simp_all
  unfold newSensorMultiLevel
  simp only
  rw [if_neg (by rw [f1]; omega)]
  refine ⟨_, rfl, ?_⟩
  simp only [hr]
  split <;> simp [Rat.div_def]

example : ¬ ((0x03 : UInt8).toNat % 8 = 1 ∨ (0x03 : UInt8).toNat % 8 = 2 ∨
    (0x03 : UInt8).toNat % 8 = 4) := by decide

/-! ## C19 -/

/-- C19.  The documented types 1 … 31 have their documented names, all pairwise distinct. -/
theorem C19_documented_names :
    sensorNames.length = 31 ∧ sensorNames.Nodup ∧
    ∀ t : UInt8, (∀ s, sensorNames[t.toNat - 1]? = some s → 1 ≤ t.toNat →
      sensorTypeString t = s.toList) ∧
      (t.toNat = 0 ∨ 31 < t.toNat → ∃ r, sensorTypeString t = "Unknown (".toList ++ r) := by
  refine ⟨rfl, by decide, ?_⟩
  intro t
  constructor
  · have := u8_forall (P := fun t => sensorNames[t.toNat - 1]?.all (fun s =>
        t.toNat == 0 || sensorTypeString t == s.toList) = true) (by decide +kernel) t
    intro s hs h1
    rw [hs] at this
    simp at this
    rcases this with h | h
    · omega
    · exact h
  · intro h
    have : sensorTypeName t.toNat = none := by
      unfold sensorTypeName
      split <;> first | rfl | omega
    unfold sensorTypeString
    rw [this]
    exact ⟨itoa t.toNat ++ ")".toList, by simp⟩

/-- The state key of a sensor report, nodes/node.go 137 (`strings.ToLower(TypeString + "_" + Unit)`;
all characters that occur are ASCII). -/
def sensorKey (s : SensorMultiLevel) : List Char :=
  (s.typeString ++ '_' :: s.unit).map Char.toLower

/-- C19.  Reports of different types never write the same node state entry, and no sensor report
writes the entries of switches and alarms. -/
theorem C19_keys_distinct (d e : List UInt8) (s r : SensorMultiLevel)
    (hd : newSensorMultiLevel d = .ok s) (he : newSensorMultiLevel e = .ok r)
    (hk : sensorKey s = sensorKey r) : s.valueType = r.valueType := by
  obtain ⟨h1, -⟩ := sensor_strings hd
  obtain ⟨h2, -⟩ := sensor_strings he
  apply sensorTypeString_lower_inj
  rw [← h1, ← h2]
  have e1 := sensorKey_prefix s.valueType s.unit
  have e2 := sensorKey_prefix r.valueType r.unit
  unfold sensorKey at hk
  rw [h1, h2] at hk ⊢
  rw [← e1, ← e2, hk]

/-- C19.  Sensor keys differ from the keys used by switches and alarms, for any unit. -/
theorem C19_keys_not_reserved (s : SensorMultiLevel) :
    sensorKey s ≠ "level".toList ∧ sensorKey s ≠ "alarm".toList ∧
      sensorKey s ≠ "alarmLastType".toList ∧ sensorKey s ≠ [] := by
  have : '_' ∈ sensorKey s := by
    simp only [sensorKey, List.map_append, List.map_cons, List.mem_append, List.mem_cons]
    exact .inr (.inl (by decide))
  refine ⟨?_, ?_, ?_, ?_⟩ <;> intro h <;> rw [h] at this <;> revert this <;> decide

example : (newSensorMultiLevel [0x01, 0x22, 0x00, 0xE7]).toOption.map sensorKey =
    some "temperature_c".toList := by decide +kernel

/-! ## C20 -/

/-- C20, one-byte binary report: on exactly for 0xFF, 0xFE flagged. -/
theorem C20_binary_v1 (b : UInt8) (r : Report) (h : newSwitchBinaryV1 [b] = .ok r) :
    r = .switchBinaryV1 (decide (b = 0xFF)) (decide (b ≠ 0xFE)) := by
  have := u8_forall (P := fun b => newSwitchBinaryV1 [b] =
    .ok (.switchBinaryV1 (decide (b = 0xFF)) (decide (b ≠ 0xFE)))) (by decide +kernel) b
  rw [this] at h; cases h; rfl

/-- C20, three-byte binary report: on exactly for non-zero bytes. -/
theorem C20_binary_v2 (a b c : UInt8) (r : Report) (h : newSwitchBinaryV2 [a, b, c] = .ok r) :
    r = .switchBinaryV2 (decide (a ≠ 0)) (decide (b ≠ 0)) c := by
  cases h
  by_cases ha : a = 0 <;> by_cases hb : b = 0 <;> simp [ha, hb]

/-- C20, multilevel reports: level `min byte 100`, unknown flagged. -/
theorem C20_multilevel (d : List UInt8) :
    (∀ r, newSwitchMultilevelV1 d = .ok r → ∃ b, d = [b] ∧
      r = .switchMultilevelV1 (min b.toNat 100) (decide (b ≠ 0xFE))) ∧
    (∀ r, newSwitchMultilevelV4 d = .ok r → ∃ a b c, d = [a, b, c] ∧
      r = .switchMultilevelV4 (min a.toNat 100) (min b.toNat 100) c (decide (a ≠ 0xFE))
        (decide (b ≠ 0xFE))) := by
  constructor
  · intro r h
    unfold newSwitchMultilevelV1 at h
    split at h
    · rename_i b
      cases h
      refine ⟨b, rfl, ?_⟩
      by_cases hb : b = 0xFE <;> simp [hb]
    · cases h
  · intro r h
    unfold newSwitchMultilevelV4 at h
    split at h
    · rename_i a b c
      cases h
      refine ⟨a, b, c, rfl, ?_⟩
      by_cases ha : a = 0xFE <;> by_cases hb : b = 0xFE <;> simp [ha, hb]
    · cases h

/-- C20, range: every level that comes out of `reports.New` is at most 100. -/
theorem C20_level_range (c k : UInt8) (d : List UInt8) (r : Report) (h : newReport c k d = .ok r) :
    match r with
    | .switchMultilevelV1 cur _ => cur ≤ 100
    | .switchMultilevelV4 cur tgt _ _ _ => cur ≤ 100 ∧ tgt ≤ 100
    | _ => True := by
  have hk := (C15_dispatch c k d (kindOf r)).1 ⟨r, h, rfl⟩
  cases r with
  | switchMultilevelV1 cur v =>
    obtain ⟨h1, h2⟩ := hk
    obtain ⟨b, rfl⟩ := List.length_eq_one_iff.1 h2
    simp [kindOf, classTable] at h1
    obtain ⟨rfl, rfl⟩ := h1
    cases h
    simp; omega
  | switchMultilevelV4 cur tgt a b' c' =>
    obtain ⟨h1, h2⟩ := hk
    simp [kindOf, classTable] at h1
    obtain ⟨rfl, rfl⟩ := h1
    match d, h2 with
    | [x, y, z], _ =>
      cases h
      simp; omega
  | _ => trivial

example : newReport 0x26 0x03 [0xFE] = .ok (.switchMultilevelV1 100 false) := by decide

/-! ## C21 -/

/-- C21.  Alarm reports. -/
theorem C21_alarm (d : List UInt8) :
    (d.length < 2 → newAlarm d = .error .length) ∧
    ∀ h2 : 2 ≤ d.length, ∃ a, newAlarm d = .ok a ∧ a.type = d[0] ∧ a.level = d[1] ∧
      (d.length < 6 → a.sensorSourceID = 0 ∧ a.status = 0 ∧ a.sensorType = 0 ∧ a.event = 0) ∧
      ∀ h6 : 6 ≤ d.length,
        a.sensorSourceID = d[2] ∧ a.status = d[3] ∧ a.sensorType = d[4] ∧ a.event = d[5] := by
  constructor
  · intro h
    match d, h with
    | [], _ | [_], _ => rfl
  · intro h
    match d, h with
    | [a, b], _ => exact ⟨_, rfl, rfl, rfl, by simp, by simp⟩
    | [a, b, c], _ => exact ⟨_, rfl, rfl, rfl, by simp, by simp⟩
    | [a, b, c, d], _ => exact ⟨_, rfl, rfl, rfl, by simp, by simp⟩
    | [a, b, c, d, e], _ => exact ⟨_, rfl, rfl, rfl, by simp, by simp⟩
    | a :: b :: c :: d :: e :: f :: r, _ =>
      exact ⟨_, rfl, rfl, rfl, by simp; omega, fun _ => ⟨rfl, rfl, rfl, rfl⟩⟩

/-- C21.  Endpoint reports. -/
theorem C21_endpoints (d : List UInt8) :
    (d.length < 2 → newMultiChannelEndpoints d = .error .length) ∧
    ∀ h2 : 2 ≤ d.length, ∃ m, newMultiChannelEndpoints d = .ok m ∧
      m.dynamic = bit d[0] 7 ∧ m.identical = bit d[0] 6 ∧ m.endpoints = d[1].toNat := by
  constructor
  · intro h
    match d, h with
    | [], _ | [_], _ => rfl
  · intro h
    match d, h with
    | a :: b :: r, _ =>
      have := u8_forall (P := fun a => (a &&& 0x80 != 0) = bit a 7 ∧ (a &&& 0x40 != 0) = bit a 6)
        (by decide +kernel) a
      exact ⟨_, rfl, this.1, this.2, rfl⟩

example : (2 : Nat) ≤ ([0x80, 0x03] : List UInt8).length := by decide

/-! ## C22 -/

/-- C22.  Durations, in seconds, for every byte. -/
theorem C22_duration (d : UInt8) :
    (d.toNat ≤ 127 → duration d = .ok d.toNat) ∧
    (128 ≤ d.toNat → d.toNat ≤ 253 → duration d = .ok ((d.toNat - 127) * 60)) ∧
    (254 ≤ d.toNat → duration d = .error .factoryDefault) :=
  u8_forall (P := fun d => (d.toNat ≤ 127 → duration d = .ok d.toNat) ∧
    (128 ≤ d.toNat → d.toNat ≤ 253 → duration d = .ok ((d.toNat - 127) * 60)) ∧
    (254 ≤ d.toNat → duration d = .error .factoryDefault)) (by decide +kernel) d

/-- C22.  Within each unit, a larger byte is a longer duration. -/
theorem C22_increasing (d e : UInt8) (x y : Nat) (hd : duration d = .ok x) (he : duration e = .ok y)
    (hu : d.toNat ≤ 127 ↔ e.toNat ≤ 127) : x < y ↔ d.toNat < e.toNat := by
  obtain ⟨a1, a2, a3⟩ := C22_duration d
  obtain ⟨b1, b2, b3⟩ := C22_duration e
  by_cases h : d.toNat ≤ 127
  · rw [a1 h] at hd; cases hd
    rw [b1 (hu.1 h)] at he; cases he
    rfl
  · have h' : ¬ e.toNat ≤ 127 := fun hh => h (hu.2 hh)
    by_cases h2 : d.toNat ≤ 253
    · by_cases h3 : e.toNat ≤ 253
      · rw [a2 (by omega) h2] at hd; injection hd with hd
        rw [b2 (by omega) h3] at he; injection he with he
        omega
      · rw [b3 (by omega)] at he; cases he
    · rw [a3 (by omega)] at hd; cases hd

example : duration 0x80 = .ok 60 ∧ duration 0xFD = .ok (126 * 60) := by decide +kernel

end Verif.Props
