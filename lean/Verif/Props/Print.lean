import Verif.Lemmas.PrintRead

/-
C101: what reports print of themselves. The texts are read back with the reader of Spec/Print; a report is given by the
bytes it was decoded from, so the theorems compare bytes from the wire with what the text says.
-/

namespace Verif.Props

open Verif.Go Verif.Model Verif.Spec Verif.Lemmas

/-- C101: the text of an alarm gives all six bytes if they were sent, otherwise type and level. -/
theorem C101_alarm (x : Rat) {d : List UInt8} {r : Report} (h : newReport 0x71 0x05 d = .ok r) :
    ∃ t l rest, d = t :: l :: rest ∧
      readText (reportString d.length x r) =
        match rest with
        | src :: status :: sensorType :: event :: _ =>
          some (.alarmFull t.toNat l.toNat src.toNat status.toNat sensorType.toNat event.toNat)
        | _ => some (.alarm t.toNat l.toNat) := by
  have h' : (newAlarm d).map Report.alarm = .ok r := h
  match d, h' with
  | [], h' => cases h'
  | [_], h' => cases h'
  | [t, l], h' => cases h'; exact ⟨t, l, [], rfl, alarm_short _ (by simp)⟩
  | [t, l, a], h' => cases h'; exact ⟨t, l, [a], rfl, alarm_short _ (by simp)⟩
  | [t, l, a, b], h' => cases h'; exact ⟨t, l, [a, b], rfl, alarm_short _ (by simp)⟩
  | [t, l, a, b, c], h' => cases h'; exact ⟨t, l, [a, b, c], rfl, alarm_short _ (by simp)⟩
  | t :: l :: a :: b :: c :: e :: rest, h' =>
    cases h'
    exact ⟨t, l, a :: b :: c :: e :: rest, rfl, alarm_long _ (by simp)⟩

/-- C101: the text of a manufacturer report gives the three identifiers, four hexadecimal digits each. -/
theorem C101_manufacturer (x : Rat) {d : List UInt8} {r : Report} (h : newReport 0x72 0x05 d = .ok r) :
    ∃ a b c e f g m t i, d = [a, b, c, e, f, g] ∧
      readText (reportString d.length x r) = some (.manufacturer m t i) ∧
      m.length = 4 ∧ t.length = 4 ∧ i.length = 4 ∧
      readHex m = some (a.toNat * 256 + b.toNat) ∧ readHex t = some (c.toNat * 256 + e.toNat) ∧
      readHex i = some (f.toNat * 256 + g.toNat) := by
  have h' : (newManufacturerSpecific d).map Report.manufacturerSpecific = .ok r := h
  unfold newManufacturerSpecific at h'
  split at h'
  · next a b c e f g =>
    cases h'
    exact ⟨a, b, c, e, f, g, _, _, _, rfl, manufacturer_read _ (space_hex4 _ _) (space_hex4 _ _) (space_hex4 _ _),
      rfl, rfl, rfl, readHex_hex4 _ _, readHex_hex4 _ _, readHex_hex4 _ _⟩
  · cases h'

/-- C101: the text of an endpoint report gives both flags and the number. -/
theorem C101_endpoints (x : Rat) {d : List UInt8} {r : Report} (h : newReport 0x60 0x08 d = .ok r) :
    ∃ bits n rest, d = bits :: n :: rest ∧
      readText (reportString d.length x r) =
        some (.endpoints (bits.toNat.testBit 7) (bits.toNat.testBit 6) n.toNat) := by
  have h' : (newMultiChannelEndpoints d).map Report.multiChannelEndpoints = .ok r := h
  unfold newMultiChannelEndpoints at h'
  split at h'
  · next bits n rest =>
    cases h'
    refine ⟨bits, n, rest, rfl, ?_⟩
    rw [← (flags bits).1, ← (flags bits).2]
    exact endpoints_read _
  · cases h'

/-- C101: the text of a binary switch report says "true" for the byte 0xFF alone, "false" otherwise; with a target, it
says "true" for every byte but 0, and gives the duration in seconds. -/
theorem C101_binary (x : Rat) {d : List UInt8} {r : Report} (h : newReport 0x25 0x03 d = .ok r) :
    (∃ b, d = [b] ∧ readText (reportString d.length x r) = some (.binary (b = 0xFF))) ∨
    (∃ a b c, d = [a, b, c] ∧
      readText (reportString d.length x r) = some (.binaryTo (a ≠ 0) (b ≠ 0) (secondsOf c))) := by
  have h' : (if d.length = 1 then newSwitchBinaryV1 d else if d.length = 3 then newSwitchBinaryV2 d
      else .error .unknown) = .ok r := h
  match d, h' with
  | [], h' => cases h'
  | [b], h' =>
    cases h'
    refine .inl ⟨b, rfl, ?_⟩
    show readText ("current:".toList ++ fmtT _) = _
    rw [binary_read]
    by_cases hb : b = 0xFF
    · subst hb; rfl
    · simp [hb]
  | [_, _], h' => cases h'
  | [a, b, c], h' =>
    cases h'
    refine .inr ⟨a, b, c, rfl, ?_⟩
    rw [binaryTo_read]
    by_cases ha : a = 0 <;> by_cases hb : b = 0 <;> simp [ha, hb]
  | _ :: _ :: _ :: _ :: _, h' =>
    rw [if_neg (by simp), if_neg (by simp)] at h'
    cases h'

/-- C101: the text of a multilevel report says "unknown" for 0xFE alone, else the level, at most 100; with a target the
same about the target, and the duration in seconds. -/
theorem C101_level (x : Rat) {d : List UInt8} {r : Report} (h : newReport 0x26 0x03 d = .ok r) :
    let lvl := fun b : UInt8 => if b = 0xFE then none else some (min b.toNat 100 * 1000000)
    (∃ b, d = [b] ∧ readText (reportString d.length x r) = some (.level (lvl b))) ∨
    (∃ a b c, d = [a, b, c] ∧ readText (reportString d.length x r) = some (.levelTo (lvl a) (lvl b) (secondsOf c))) := by
  have h' : (if d.length = 1 then newSwitchMultilevelV1 d else if d.length = 3 then newSwitchMultilevelV4 d
      else .error .unknown) = .ok r := h
  dsimp only
  match d, h' with
  | [], h' => cases h'
  | [b], h' =>
    cases h'
    refine .inl ⟨b, rfl, ?_⟩
    rw [level_read]
    by_cases hb : b = 0xFE <;> simp [hb]
  | [_, _], h' => cases h'
  | [a, b, c], h' =>
    cases h'
    refine .inr ⟨a, b, c, rfl, ?_⟩
    rw [levelTo_read]
    by_cases ha : a = 0xFE <;> by_cases hb : b = 0xFE <;> simp [ha, hb]
  | _ :: _ :: _ :: _ :: _, h' =>
    rw [if_neg (by simp), if_neg (by simp)] at h'
    cases h'

/-- C101: the text of a sensor report with at most six decimals gives the transmitted integer, exactly and whatever
nearest float64 the division delivered, with its type and unit. -/
theorem C101_sensor_partial (t c : UInt8) (rest : List UInt8) (n : Nat)
    (hsz : c.toNat % 8 = 1 ∨ c.toNat % 8 = 2 ∨ c.toNat % 8 = 4) (hlen : c.toNat % 8 ≤ rest.length)
    (hp : c.toNat / 32 ≤ 6) {s : SensorMultiLevel} (hs : newSensorMultiLevel (t :: c :: rest) = .ok s) {x : Rat}
    (hx : Nearest s.value x) :
    ∃ v, TwosComplement (rest.take (c.toNat % 8)) v ∧
      readText (reportString n x (.sensorMultiLevel s)) =
        some (.sensor (decide (v < 0)) (v.natAbs * 10 ^ (6 - c.toNat / 32)) s.typeString s.unit) := by
  obtain ⟨s', v, h1, h2, h3, -⟩ := C17_sensor_value t c rest hsz hlen
  rw [hs] at h1
  cases h1
  have hr := twos_range h2 (by simp; omega)
  refine ⟨v, h2, ?_⟩
  have hpow : (0 : Int) < 10 ^ (6 - c.toNat / 32) := Int.pow_pos (by omega)
  have hm := shown_of (x := x) (w := v * 10 ^ (6 - c.toNat / 32))
    (by
      intro h0
      have hv : v = 0 := by
        rcases Int.mul_eq_zero.1 h0 with h | h
        · exact h
        · omega
      subst hv
      have hq : s.value = 0 := value_zero h3
      rw [hq] at hx
      exact nearest_zero hx)
    (float_micro hp hr.1 hr.2 h3 hx)
  have hneg : decide (v * 10 ^ (6 - c.toNat / 32) < 0) = decide (v < 0) := by
    generalize (10 : Int) ^ (6 - c.toNat / 32) = k at *
    congr 1
    apply propext
    constructor
    · intro hlt
      apply Classical.byContradiction
      intro hv
      have := Int.mul_nonneg (Int.not_lt.1 hv) (Int.le_of_lt hpow)
      omega
    · intro hv; exact Int.mul_neg_of_neg_of_pos hv hpow
  have habs : (v * 10 ^ (6 - c.toNat / 32)).natAbs = v.natAbs * 10 ^ (6 - c.toNat / 32) := by
    rw [Int.natAbs_mul, Int.natAbs_pow]; rfl
  rw [hneg, habs] at hm
  show readText (sensorString x s) = _
  rw [sensor_read x s (typeString_of hs), hm.1, hm.2]

/-- C101: with seven decimals the text gives the transmitted integer rounded to tens. -/
theorem C101_sensor_seven_partial (t c : UInt8) (rest : List UInt8) (n : Nat)
    (hsz : c.toNat % 8 = 1 ∨ c.toNat % 8 = 2 ∨ c.toNat % 8 = 4) (hlen : c.toNat % 8 ≤ rest.length)
    (hp : c.toNat / 32 = 7) {s : SensorMultiLevel} (hs : newSensorMultiLevel (t :: c :: rest) = .ok s) {x : Rat}
    (hx : Nearest s.value x) :
    ∃ v m, TwosComplement (rest.take (c.toNat % 8)) v ∧
      readText (reportString n x (.sensorMultiLevel s)) = some (.sensor (decide (v < 0)) m s.typeString s.unit) ∧
      m * 10 ≤ v.natAbs + 5 ∧ v.natAbs ≤ m * 10 + 5 := by
  obtain ⟨s', v, h1, h2, h3, -⟩ := C17_sensor_value t c rest hsz hlen
  rw [hs] at h1
  cases h1
  have hr := twos_range h2 (by simp; omega)
  rw [hp] at h3
  have hid := float_identifies (by omega) hr.1 hr.2 h3 hx
  have hz : v = 0 → x = 0 := by
    rintro rfl
    have hq : s.value = 0 := value_zero h3
    rw [hq] at hx
    exact nearest_zero hx
  have hsgn := seven_sign hz hid
  refine ⟨v, micro (if x < 0 then -x else x), h2, ?_, seven_near hz hid⟩
  show readText (sensorString x s) = _
  rw [sensor_read x s (typeString_of hs), hsgn]

/-- C101: a wake-up notification says so. -/
theorem C101_wakeup (x : Rat) (class_ : UInt8) {d : List UInt8} {r : Report} (h : newReport 0x84 class_ d = .ok r) :
    readText (reportString d.length x r) = some .wakeUp := by
  have h' : (Except.ok Report.wakeUp : GoRet Report) = .ok r := h
  cases h'
  show readText "wakeup".toList = some .wakeUp
  decide

/-- The command class a text belongs to. -/
def classOf : Shown → UInt8
  | .alarm .. => 0x71
  | .alarmFull .. => 0x71
  | .manufacturer .. => 0x72
  | .endpoints .. => 0x60
  | .binary .. => 0x25
  | .binaryTo .. => 0x25
  | .level .. => 0x26
  | .levelTo .. => 0x26
  | .sensor .. => 0x31
  | .wakeUp => 0x84

/-- C101: every text tells which command class it comes from: reports of different classes never print the same. -/
theorem C101_class (x : Rat) {c class_ : UInt8} {d : List UInt8} {r : Report} (h : newReport c class_ d = .ok r) :
    ∃ sh, readText (reportString d.length x r) = some sh ∧ classOf sh = c := by
  have h0 := h
  unfold newReport at h
  split at h
  · next hc =>
    subst hc
    split at h
    · next hk =>
      subst hk
      obtain ⟨t, l, rest, -, h3⟩ := C101_alarm x h0
      rw [h3]
      split <;> exact ⟨_, rfl, rfl⟩
    · cases h
  split at h
  · next hc =>
    subst hc
    split at h
    · next hk =>
      subst hk
      obtain ⟨_, _, _, _, _, _, _, _, _, -, h3, -⟩ := C101_manufacturer x h0
      exact ⟨_, h3, rfl⟩
    · cases h
  split at h
  · next hc =>
    subst hc
    split at h
    · next hk =>
      subst hk
      obtain ⟨_, _, _, -, h3⟩ := C101_endpoints x h0
      exact ⟨_, h3, rfl⟩
    · cases h
  split at h
  · next hc =>
    subst hc
    split at h
    · cases hs : newSensorMultiLevel d with
      | error e => rw [hs] at h; cases h
      | ok s =>
        rw [hs] at h
        cases h
        match d, hs with
        | [], hs => cases hs
        | [_], hs => cases hs
        | t :: c :: rest, hs => exact ⟨_, sensor_read x s (typeString_of hs), rfl⟩
    · cases h
  split at h
  · next hc =>
    subst hc
    split at h
    · next hk =>
      subst hk
      rcases C101_binary x h0 with ⟨_, -, h3⟩ | ⟨_, _, _, -, h3⟩ <;> exact ⟨_, h3, rfl⟩
    · cases h
  split at h
  · next hc =>
    subst hc
    split at h
    · next hk =>
      subst hk
      rcases C101_level x h0 with ⟨_, -, h3⟩ | ⟨_, _, _, -, h3⟩ <;> exact ⟨_, h3, rfl⟩
    · cases h
  split at h
  · next hc => subst hc; exact ⟨_, C101_wakeup x class_ h0, rfl⟩
  · cases h

/-- C101: alarms of the same length that print the same are the same in all they show. -/
theorem C101_alarm_same (x x' : Rat) {t l a b c e t' l' a' b' c' e' : UInt8} {rest rest' : List UInt8} {r r' : Report}
    (h : newReport 0x71 0x05 (t :: l :: a :: b :: c :: e :: rest) = .ok r)
    (h' : newReport 0x71 0x05 (t' :: l' :: a' :: b' :: c' :: e' :: rest') = .ok r')
    (heq : reportString (t :: l :: a :: b :: c :: e :: rest).length x r =
      reportString (t' :: l' :: a' :: b' :: c' :: e' :: rest').length x' r') :
    (t, l, a, b, c, e) = (t', l', a', b', c', e') := by
  obtain ⟨_, _, _, e1, h1⟩ := C101_alarm x h
  obtain ⟨_, _, _, e2, h2⟩ := C101_alarm x' h'
  cases e1; cases e2
  rw [heq, h2] at h1
  simp only [Option.some.injEq, Shown.alarmFull.injEq, UInt8.toNat_inj] at h1
  obtain ⟨rfl, rfl, rfl, rfl, rfl, rfl⟩ := h1
  rfl

/-- C101: two duration bytes print the same exactly if they stand for the same time. -/
theorem C101_duration (d d' : UInt8) : durationString d = durationString d' ↔ secondsOf d = secondsOf d' := by
  constructor
  · intro h
    have h1 := binaryTo_read 0 0 true true d
    have h2 := binaryTo_read 0 0 true true d'
    have e : reportString 0 0 (.switchBinaryV2 true true d) = reportString 0 0 (.switchBinaryV2 true true d') := by
      unfold reportString; dsimp only; rw [h]
    rw [e, h2] at h1
    injection h1 with h1
    injection h1 with _ _ h1
    exact h1.symm
  · intro h
    rw [← secondsOf_eq, ← secondsOf_eq] at h
    unfold durationString
    cases h1 : duration d <;> cases h2 : duration d' <;> rw [h1, h2] at h
    · cases h
    · cases h
    · injection h with h; rw [h]

/-- C101 does not hold in full: a binary switch whose state is unknown (0xFE) prints as one that is off. -/
theorem C101_violated_unknown (x : Rat) : ∃ r r', newReport 0x25 0x03 [0xFE] = .ok r ∧
    newReport 0x25 0x03 [0x00] = .ok r' ∧ r ≠ r' ∧ reportString 1 x r = reportString 1 x r' :=
  ⟨_, _, rfl, rfl, by decide, rfl⟩

/-- C101 does not hold in full: readings with seven decimals, different on the wire, print the same whatever nearest
float64 they became. -/
theorem C101_violated_seven : ∃ s s', newSensorMultiLevel [0x01, 0xE1, 0x01] = .ok s ∧
    newSensorMultiLevel [0x01, 0xE1, 0x02] = .ok s' ∧ s.value ≠ s'.value ∧
    ∀ x x', Nearest s.value x → Nearest s'.value x' →
      reportString 3 x (.sensorMultiLevel s) = reportString 3 x' (.sensorMultiLevel s') := by
  refine ⟨_, _, rfl, rfl, by decide +kernel, ?_⟩
  intro x x' hx hx'
  have key : ∀ (b : UInt8) (v : Int) {s : SensorMultiLevel} {x : Rat}, newSensorMultiLevel [0x01, 0xE1, b] = .ok s →
      TwosComplement [b] v → 0 < v → v < 5 → Nearest s.value x → fmtF x = fmtF 0 := by
    intro b v s x hs htc h1 h2 hx
    obtain ⟨w, m, g1, g2, g3, g4⟩ := C101_sensor_seven_partial 0x01 0xE1 [b] 3 (.inl rfl) (by simp) rfl hs hx
    have hw : w = v := g1.unique htc
    subst hw
    have hm : m = 0 := by omega
    subst hm
    have g2' : readText (sensorString x s) = _ := g2
    rw [sensor_read x s (typeString_of hs)] at g2'
    injection g2' with g2'
    injection g2' with q1 q2
    have hx0 : ¬ x < 0 := by
      intro h; simp [h] at q1; omega
    rw [if_neg hx0] at q2
    rw [fmtF_nonneg hx0, q2]
    decide +kernel
  have k1 := key 1 1 rfl ⟨by decide, by decide, by decide⟩ (by decide) (by decide) hx
  have k2 := key 2 2 rfl ⟨by decide, by decide, by decide⟩ (by decide) (by decide) hx'
  show sensorString _ _ = sensorString _ _
  unfold sensorString
  rw [k1, k2]

/-! ## The hypotheses are met -/

/-- A door sensor says that it was opened. -/
example : ∃ r, newReport 0x71 0x05 [0x00, 0x00, 0x00, 0xFF, 0x06, 0x16, 0x00] = .ok r ∧
    reportString 7 0 r = "alarm type:0 level:0 sensorSrcID:0 status:ff sensorType:6 event:16".toList :=
  ⟨_, rfl, by decide +kernel⟩

example : ∃ r, newReport 0x26 0x03 [0x32, 0x63, 0xBC] = .ok r ∧
    reportString 3 0 r = "current:50.000000 target:99.000000 duration:1h1m0s".toList :=
  ⟨_, rfl, by decide +kernel⟩

example : ∃ r, newReport 0x26 0x03 [0xFE, 0xFE, 0xFE] = .ok r ∧
    reportString 3 0 r = "current:unknown target:unknown duration:Factory default duration".toList :=
  ⟨_, rfl, by decide +kernel⟩

example : ∃ r, newReport 0x72 0x05 [0x01, 0x0F, 0x0C, 0x00, 0x10, 0x01] = .ok r ∧
    reportString 6 0 r = "manufacturerSpecific manufacturer:010f type:0c00 id:1001 (010f:0c00:1001)".toList :=
  ⟨_, rfl, by decide +kernel⟩

/-- One tenth of a degree: the float64 is not 1/10, the text is. -/
example : ∃ s, newSensorMultiLevel [0x01, 0x21, 0x01] = .ok s ∧ Nearest s.value tenth ∧
    reportString 3 tenth (.sensorMultiLevel s) = "0.100000 Temperature C".toList := by
  refine ⟨_, rfl, ?_, by decide +kernel⟩
  have := nearest_tenth
  exact this

/-- Two bytes for the same time, and for the factory default. -/
example : durationString 60 = "1m0s".toList ∧ durationString 128 = "1m0s".toList ∧
    durationString 254 = durationString 255 := by decide +kernel

end Verif.Props
