import Verif.Lemmas.Stream
import Verif.Spec.Reports

set_option linter.unusedSimpArgs false

namespace Verif.Lemmas

open Verif.Go Verif.Model Verif.Spec

theorem setBool_getElem? {a r : List Bool} {i j : Nat} {v : Bool} (h : setBool a i v = .ok r) :
    r[j]? = if j = i then some v else a[j]? := by
  unfold setBool at h
  split at h
  · cases h
    rw [List.getElem?_set]
    by_cases hji : j = i
    · subst hji; simp [*]
    · rw [if_neg hji, if_neg (fun hh => hji hh.symm)]
  · cases h

theorem discSetByte_getElem? {a r : List Bool} {i : Nat} {b : UInt8} {j : Nat}
    (h : discSetByte a i b = .ok r) :
    r[j]? = if j / 8 = i then some (bit b (j % 8)) else a[j]? := by
  have hb : (b &&& 0x01 != 0) = bit b 0 ∧ (b &&& 0x02 != 0) = bit b 1 ∧
      (b &&& 0x04 != 0) = bit b 2 ∧ (b &&& 0x08 != 0) = bit b 3 ∧ (b &&& 0x10 != 0) = bit b 4 ∧
      (b &&& 0x20 != 0) = bit b 5 ∧ (b &&& 0x40 != 0) = bit b 6 ∧ (b &&& 0x80 != 0) = bit b 7 :=
    u8_forall (P := fun b => (b &&& 0x01 != 0) = bit b 0 ∧ (b &&& 0x02 != 0) = bit b 1 ∧
      (b &&& 0x04 != 0) = bit b 2 ∧ (b &&& 0x08 != 0) = bit b 3 ∧ (b &&& 0x10 != 0) = bit b 4 ∧
      (b &&& 0x20 != 0) = bit b 5 ∧ (b &&& 0x40 != 0) = bit b 6 ∧ (b &&& 0x80 != 0) = bit b 7)
      (by decide +kernel) b
  obtain ⟨b0, b1, b2, b3, b4, b5, b6, b7⟩ := hb
  unfold discSetByte at h
  rw [b0, b1, b2, b3, b4, b5, b6, b7] at h
  obtain ⟨a0, h0, h⟩ := bind_eq_ok.1 h
  obtain ⟨a1, h1, h⟩ := bind_eq_ok.1 h
  obtain ⟨a2, h2, h⟩ := bind_eq_ok.1 h
  obtain ⟨a3, h3, h⟩ := bind_eq_ok.1 h
  obtain ⟨a4, h4, h⟩ := bind_eq_ok.1 h
  obtain ⟨a5, h5, h⟩ := bind_eq_ok.1 h
  obtain ⟨a6, h6, h⟩ := bind_eq_ok.1 h
  rw [setBool_getElem? h, setBool_getElem? h6, setBool_getElem? h5, setBool_getElem? h4,
    setBool_getElem? h3, setBool_getElem? h2, setBool_getElem? h1, setBool_getElem? h0]
  by_cases hj : j / 8 = i
  · rw [if_pos hj]
    have hlt : j % 8 < 8 := Nat.mod_lt _ (by decide)
    have hj' : j = i * 8 + j % 8 := by omega
    generalize j % 8 = m at *
    subst hj'
    have : m = 0 ∨ m = 1 ∨ m = 2 ∨ m = 3 ∨ m = 4 ∨ m = 5 ∨ m = 6 ∨ m = 7 := by omega
    rcases this with rfl | rfl | rfl | rfl | rfl | rfl | rfl | rfl <;> simp
  · rw [if_neg hj]
    repeat rw [if_neg (by omega)]

theorem discLoop_getElem? (l : List UInt8) (a r : List Bool) (i j : Nat)
    (h : discLoop a i l = .ok r) :
    r[j]? = if i ≤ j / 8 ∧ j / 8 < i + l.length then
      l[j / 8 - i]?.map fun b => bit b (j % 8) else a[j]? := by
  induction l generalizing a i with
  | nil =>
    cases h
    rw [if_neg (by simp)]
  | cons b t ih =>
    obtain ⟨a', ha', h⟩ := bind_eq_ok.1 h
    rw [ih a' (i + 1) h, discSetByte_getElem? ha']
    by_cases h1 : j / 8 = i
    · subst h1
      rw [if_neg (by omega)]
      simp
    · by_cases h2 : i + 1 ≤ j / 8 ∧ j / 8 < i + 1 + t.length
      · rw [if_pos h2, if_pos (by simp; omega)]
        have : j / 8 - i = (j / 8 - (i + 1)) + 1 := by omega
        rw [this, List.getElem?_cons_succ]
      · rw [if_neg h2, if_neg h1, if_neg (by simp only [List.length_cons]; omega)]

theorem discLoop_length (l : List UInt8) (a r : List Bool) (i : Nat) (h : discLoop a i l = .ok r) :
    r.length = a.length := by
  induction l generalizing a i with
  | nil => cases h; rfl
  | cons b t ih =>
    obtain ⟨a', ha', h⟩ := bind_eq_ok.1 h
    rw [ih a' _ h, discSetByte_length ha']

/-! ### report dispatch -/

/-- `Announces` with the table unfolded, in the order of the dispatch. -/
def AnnouncesBy (c k : UInt8) (d : List UInt8) (kd : Kind) : Prop :=
  if c = 0x71 then (if k = 0x05 then kd = .alarm ∧ 2 ≤ d.length else False)
  else if c = 0x72 then (if k = 0x05 then kd = .manufacturer ∧ d.length = 6 else False)
  else if c = 0x60 then (if k = 0x08 then kd = .endpoints ∧ 2 ≤ d.length else False)
  else if c = 0x31 then (if k = 0x05 then kd = .sensor ∧ lengthFits .sensor d else False)
  else if c = 0x25 then (if k = 0x03 then
    (if d.length = 1 then kd = .binaryV1 else if d.length = 3 then kd = .binaryV2 else False)
    else False)
  else if c = 0x26 then (if k = 0x03 then
    (if d.length = 1 then kd = .multilevelV1 else if d.length = 3 then kd = .multilevelV4 else False)
    else False)
  else if c = 0x84 then kd = .wakeUp
  else False

theorem announces_iff (kd : Kind) (c k : UInt8) (d : List UInt8) :
    Announces kd c k d ↔ AnnouncesBy c k d kd := by
  unfold AnnouncesBy Announces
  repeat' split
  all_goals (try subst_vars)
  all_goals first
    | (cases kd <;> simp_all [classTable, lengthFits])

theorem newReport_eq (c k : UInt8) (d : List UInt8) : newReport c k d =
    if c = 0x71 then (if k = 0x05 then (newAlarm d).map .alarm else .error .unknown)
    else if c = 0x72 then
      (if k = 0x05 then (newManufacturerSpecific d).map .manufacturerSpecific else .error .unknown)
    else if c = 0x60 then
      (if k = 0x08 then (newMultiChannelEndpoints d).map .multiChannelEndpoints
        else .error .unknown)
    else if c = 0x31 then
      (if k = 0x05 then (newSensorMultiLevel d).map .sensorMultiLevel else .error .unknown)
    else if c = 0x25 then
      (if k = 0x03 then (if d.length = 1 then newSwitchBinaryV1 d
        else if d.length = 3 then newSwitchBinaryV2 d else .error .unknown) else .error .unknown)
    else if c = 0x26 then
      (if k = 0x03 then (if d.length = 1 then newSwitchMultilevelV1 d
        else if d.length = 3 then newSwitchMultilevelV4 d else .error .unknown)
        else .error .unknown)
    else if c = 0x84 then .ok .wakeUp else .error .unknown := rfl

theorem length_six {d : List UInt8} (h : d.length = 6) :
    ∃ a b c e f g, d = [a, b, c, e, f, g] := by
  match d, h with
  | [a, b, c, e, f, g], _ => exact ⟨a, b, c, e, f, g, rfl⟩

theorem newAlarm_kind (d : List UInt8) (kd : Kind) :
    (∃ r, (newAlarm d).map Report.alarm = .ok r ∧ kindOf r = kd) ↔ 2 ≤ d.length ∧ kd = .alarm := by
  unfold newAlarm
  split <;> simp_all [Except.map, kindOf, eq_comm]
  match d with
  | [] | [_] => simp
  | a :: b :: r => simp_all

theorem newManufacturerSpecific_kind (d : List UInt8) (kd : Kind) :
    (∃ r, (newManufacturerSpecific d).map Report.manufacturerSpecific = .ok r ∧ kindOf r = kd) ↔
      d.length = 6 ∧ kd = .manufacturer := by
  unfold newManufacturerSpecific
  split
  · simp [Except.map, kindOf, eq_comm]
  · rename_i h
    have : d.length ≠ 6 := by
      intro hh
      match d, hh with
      | [a, b, c, e, f, g], _ => exact h a b c e f g rfl
    simp [Except.map, this]

theorem newMultiChannelEndpoints_kind (d : List UInt8) (kd : Kind) :
    (∃ r, (newMultiChannelEndpoints d).map Report.multiChannelEndpoints = .ok r ∧ kindOf r = kd) ↔
      2 ≤ d.length ∧ kd = .endpoints := by
  match d with
  | [] | [_] => simp [newMultiChannelEndpoints, Except.map]
  | a :: b :: r => simp [newMultiChannelEndpoints, Except.map, kindOf, eq_comm]

theorem sensor_fields (c : UInt8) : (c &&& 0x07).toNat = c.toNat % 8 ∧
    ((c &&& 0x18) >>> 3).toNat = c.toNat / 8 % 4 ∧ ((c &&& 0xE0) >>> 5).toNat = c.toNat / 32 :=
  u8_forall (P := fun c => (c &&& 0x07).toNat = c.toNat % 8 ∧
    ((c &&& 0x18) >>> 3).toNat = c.toNat / 8 % 4 ∧ ((c &&& 0xE0) >>> 5).toNat = c.toNat / 32)
    (by decide +kernel) c

theorem newSensorMultiLevel_kind (d : List UInt8) (kd : Kind) :
    (∃ r, (newSensorMultiLevel d).map Report.sensorMultiLevel = .ok r ∧ kindOf r = kd) ↔
      lengthFits .sensor d ∧ kd = .sensor := by
  match d with
  | [] | [_] => simp [newSensorMultiLevel, Except.map, lengthFits]
  | t :: c :: rest =>
    have h : lengthFits .sensor (t :: c :: rest) ↔ c.toNat % 8 ≤ rest.length := by
      simp only [lengthFits]
      constructor
      · rintro ⟨t', c', r', h, h2⟩; cases h; exact h2
      · intro h; exact ⟨t, c, rest, rfl, h⟩
    rw [h]
    unfold newSensorMultiLevel
    simp only [(sensor_fields c).1]
    split
    · simp [Except.map]; omega
    · have : c.toNat % 8 ≤ rest.length := by omega
      simp [Except.map, kindOf, eq_comm, this]

/-! ### hexadecimal -/

theorem hexDigit_val : ∀ n : Fin 16, hexVal (hexDigit n) = n ∧ IsHexLower (hexDigit n) := by
  decide

theorem hexDigit_mod (n : Nat) : hexVal (hexDigit (n % 16)) = n % 16 :=
  (hexDigit_val ⟨n % 16, Nat.mod_lt _ (by decide)⟩).1

theorem hexDigit_lower (n : Nat) : IsHexLower (hexDigit (n % 16)) :=
  (hexDigit_val ⟨n % 16, Nat.mod_lt _ (by decide)⟩).2

theorem hexNum_hex4 (a b : UInt8) : hexNum (hex4 a b) = a.toNat * 256 + b.toNat := by
  have := a.toNat_lt
  have := b.toNat_lt
  simp only [hexNum, hex4, List.foldl, hexDigit_mod]
  omega

theorem hex4_lower (a b : UInt8) : ∀ c ∈ hex4 a b, IsHexLower c := by
  intro c hc
  simp [hex4] at hc
  rcases hc with rfl | rfl | rfl | rfl <;> exact hexDigit_lower _

/-! ### sensors -/

theorem signed_spec (n v : Nat) (hn : 1 ≤ n) (hv : v < 2 ^ n) :
    -(2 ^ n : Nat) ≤ 2 * signed n v ∧ 2 * signed n v < (2 ^ n : Nat) ∧
      signed n v % (2 ^ n : Nat) = v := by
  obtain ⟨m, rfl⟩ : ∃ m, n = m + 1 := ⟨n - 1, by omega⟩
  have h2 : (2 ^ (m + 1) : Nat) = 2 * 2 ^ m := by rw [Nat.pow_succ]; omega
  have h3 : ((2 : Int) ^ (m + 1)) = ((2 ^ (m + 1) : Nat) : Int) := by simp
  unfold signed
  simp only [Nat.add_sub_cancel]
  have hv' : v < 2 * 2 ^ m := by omega
  rw [h3, h2]
  generalize 2 ^ m = M at hv' ⊢
  split
  · refine ⟨by omega, by omega, ?_⟩
    exact Int.emod_eq_of_lt (by omega) (by omega)
  · refine ⟨by omega, by omega, ?_⟩
    rw [Int.sub_emod_right]
    exact Int.emod_eq_of_lt (by omega) (by omega)

theorem sensorRaw_spec (n : Nat) (rest : List UInt8) (hn : n = 1 ∨ n = 2 ∨ n = 4)
    (hl : n ≤ rest.length) : TwosComplement (rest.take n) (sensorRaw n rest) := by
  rcases hn with rfl | rfl | rfl
  · match rest, hl with
    | a :: r, _ =>
      have := a.toNat_lt
      have h := signed_spec 8 a.toNat (by omega) (by simpa using this)
      simpa [TwosComplement, sensorRaw, beNat] using h
  · match rest, hl with
    | a :: b :: r, _ =>
      have := a.toNat_lt
      have := b.toNat_lt
      have h := signed_spec 16 (a.toNat * 256 + b.toNat) (by omega) (by simp; omega)
      simpa [TwosComplement, sensorRaw, beNat] using h
  · match rest, hl with
    | a :: b :: c :: d :: r, _ =>
      have := a.toNat_lt
      have := b.toNat_lt
      have := c.toNat_lt
      have := d.toNat_lt
      have h := signed_spec 32 (((a.toNat * 256 + b.toNat) * 256 + c.toNat) * 256 + d.toNat)
        (by omega) (by simp; omega)
      simpa [TwosComplement, sensorRaw, beNat] using h

theorem sensor_strings {d : List UInt8} {s : SensorMultiLevel} (h : newSensorMultiLevel d = .ok s) :
    s.typeString = sensorTypeString s.valueType ∧
      s.unit = (sensorUnit s.valueType.toNat s.scale.toNat).toList := by
  unfold newSensorMultiLevel at h
  split at h
  · simp only at h
    split at h
    · cases h
    · cases h; exact ⟨rfl, rfl⟩
  · cases h

/-- The lower-case type names of all 256 types. -/
def lowerNames : List (List Char) :=
  (List.range 256).map fun n => (sensorTypeString (UInt8.ofNat n)).map Char.toLower

/-- A number for a name; distinct for the names above, which is quicker to decide than that the names are. -/
def nameCode (l : List Char) : Nat := l.foldl (fun a c => (a * 10 + c.toNat) % 1000003) 0

/-- The numbers of the names. -/
def nameCodes : List Nat :=
  [160761, 679554, 313136, 672821, 244021, 851581, 16902, 184195, 630160, 875948, 919734, 139374, 721217,
   255635, 26417, 306441, 964983, 11060, 753705, 205498, 765740, 230672, 693931, 649302, 394085, 281090,
   132336, 100388, 984254, 40957, 817756, 775305, 608038, 608048, 608058, 608068, 608078, 608088, 608098,
   608108, 608118, 608128, 608138, 608148, 608158, 608168, 608178, 608188, 608198, 608208, 608218, 608228,
   608238, 608248, 608258, 608268, 608278, 608288, 608298, 608308, 608318, 608328, 608338, 608348, 608358,
   608368, 608378, 608388, 608398, 608408, 608418, 608428, 608438, 608448, 608458, 608468, 608478, 608488,
   608498, 608508, 608518, 608528, 608538, 608548, 608558, 608568, 608578, 608588, 608598, 608608, 608618,
   608628, 608638, 608648, 608658, 608668, 608678, 608688, 608698, 608708, 78273, 78283, 78293, 78303,
   78313, 78323, 78333, 78343, 78353, 78363, 78373, 78383, 78393, 78403, 78413, 78423, 78433, 78443, 78453,
   78463, 78473, 78483, 78493, 78503, 78513, 78523, 78533, 78543, 78553, 78563, 78573, 78583, 78593, 78603,
   78613, 78623, 78633, 78643, 78653, 78663, 78673, 78683, 78693, 78703, 78713, 78723, 78733, 78743, 78753,
   78763, 78773, 78783, 78793, 78803, 78813, 78823, 78833, 78843, 78853, 78863, 78873, 78883, 78893, 78903,
   78913, 78923, 78933, 78943, 78953, 78963, 78973, 78983, 78993, 79003, 79013, 79023, 79033, 79043, 79053,
   79063, 79073, 79083, 79093, 79103, 79113, 79123, 79133, 79143, 79153, 79163, 79173, 79183, 79193, 79203,
   79213, 79223, 79233, 79243, 79253, 79263, 79273, 79283, 79293, 79303, 79313, 79323, 79333, 79343, 79353,
   79363, 79373, 79383, 79393, 79403, 79413, 79423, 79433, 79443, 79453, 79463, 79473, 79483, 79493, 79503,
   79513, 79523, 79533, 79543, 79553, 79563, 79573, 79583, 79593, 79603, 79613, 79623, 79633, 79643, 79653,
   79663, 79673, 79683, 79693, 79703, 79713, 79723, 79733, 79743, 79753, 79763, 79773, 79783, 79793, 79803,
   79813, 79823]

theorem nameCodes_eq : lowerNames.map nameCode = nameCodes := by decide +kernel

theorem nameCodes_nodup : nameCodes.Nodup := by decide +kernel

theorem lowerNames_nodup : lowerNames.Nodup := by
  have h := nameCodes_nodup
  rw [← nameCodes_eq, List.Nodup, List.pairwise_map] at h
  exact h.imp fun {a b} h e => h (by rw [e])

theorem sensorTypeString_lower_inj (a b : UInt8)
    (h : (sensorTypeString a).map Char.toLower = (sensorTypeString b).map Char.toLower) :
    a = b := by
  have ha := a.toNat_lt
  have hb := b.toNat_lt
  have hlen : lowerNames.length = 256 := by simp [lowerNames]
  have key := List.pairwise_iff_getElem.1 lowerNames_nodup
  have hi : ∀ i j : Nat, (hi : i < 256) → (hj : j < 256) → i < j →
      (sensorTypeString (UInt8.ofNat i)).map Char.toLower ≠
        (sensorTypeString (UInt8.ofNat j)).map Char.toLower := by
    intro i j hi hj hij
    have := key i j (by omega) (by omega) hij
    simpa [lowerNames] using this
  rcases Nat.lt_trichotomy a.toNat b.toNat with hl | hl | hl
  · exact absurd (by simpa using h) (hi _ _ ha hb hl)
  · exact UInt8.toNat_inj.1 hl
  · exact absurd (by simpa using h.symm) (hi _ _ hb ha hl)

theorem lowerNames_no_underscore (a : UInt8) :
    ((sensorTypeString a).map Char.toLower).all (· != '_') = true :=
  u8_forall (P := fun a => ((sensorTypeString a).map Char.toLower).all (· != '_') = true)
    (by decide +kernel) a

theorem sensorKey_prefix (t : UInt8) (u : List Char) :
    ((sensorTypeString t ++ '_' :: u).map Char.toLower).takeWhile (· != '_') =
      (sensorTypeString t).map Char.toLower := by
  have h := lowerNames_no_underscore t
  rw [List.all_eq_true] at h
  have e : Char.toLower '_' = '_' := by decide
  rw [List.map_append, List.map_cons, e, List.takeWhile_append_of_pos h]
  simp

end Verif.Lemmas
