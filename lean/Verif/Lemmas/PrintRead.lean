import Verif.Lemmas.Print
import Verif.Props.Reports

/-
Reading back the texts of the reports, kind by kind.
-/

namespace Verif.Lemmas

open Verif.Go Verif.Model Verif.Spec Verif.Props

set_option linter.unusedSimpArgs false

theorem words_of2 {l w s : List Char} (hl : ' ' ∉ l) (hw : ' ' ∉ w) : words (l ++ (w ++ ' ' :: s)) = (l ++ w) :: words s := by
  rw [← List.append_assoc]
  exact words_of (by simp [hl, hw])

theorem words_one2 {l w : List Char} (hl : ' ' ∉ l) (hw : ' ' ∉ w) : words (l ++ w) = [l ++ w] :=
  words_one (by simp [hl, hw])

/-- A label of the texts. -/
theorem label {l : List Char} (h : l.contains ' ' = false) : ' ' ∉ l := by
  intro hm
  rw [List.contains_eq_mem] at h
  simp [hm] at h

theorem alarm_short (a : Alarm) {n : Nat} (hn : n < 6) :
    readText (alarmString n a) = some (.alarm a.type.toNat a.level.toNat) := by
  have e1 : "alarm type:".toList = "alarm".toList ++ ' ' :: "type:".toList := by decide
  have e2 : " level:".toList = ' ' :: "level:".toList := by decide
  unfold readText alarmString
  rw [if_neg (by omega), e1, e2]
  simp only [List.append_assoc, List.cons_append]
  rw [words_of (label (by decide)), words_of2 (label (by decide)) (space_fmtX _),
    words_one2 (label (by decide)) (space_fmtX _)]
  unfold readWords
  dsimp only
  rw [if_neg (by decide), if_pos rfl]
  simp only [after_self, Option.bind_some, readHex_fmtX, Option.bind_eq_bind]

theorem alarm_long (a : Alarm) {n : Nat} (hn : 6 ≤ n) :
    readText (alarmString n a) = some (.alarmFull a.type.toNat a.level.toNat a.sensorSourceID.toNat a.status.toNat
      a.sensorType.toNat a.event.toNat) := by
  have e1 : "alarm type:".toList = "alarm".toList ++ ' ' :: "type:".toList := by decide
  have e2 : " level:".toList = ' ' :: "level:".toList := by decide
  have e3 : " sensorSrcID:".toList = ' ' :: "sensorSrcID:".toList := by decide
  have e4 : " status:".toList = ' ' :: "status:".toList := by decide
  have e5 : " sensorType:".toList = ' ' :: "sensorType:".toList := by decide
  have e6 : " event:".toList = ' ' :: "event:".toList := by decide
  unfold readText alarmString
  rw [if_pos (by omega), e1, e2, e3, e4, e5, e6]
  simp only [List.append_assoc, List.cons_append]
  rw [words_of (label (by decide)), words_of2 (label (by decide)) (space_fmtX _),
    words_of2 (label (by decide)) (space_fmtX _), words_of2 (label (by decide)) (space_fmtX _),
    words_of2 (label (by decide)) (space_fmtX _), words_of2 (label (by decide)) (space_fmtX _),
    words_one2 (label (by decide)) (space_fmtX _)]
  unfold readWords
  dsimp only
  rw [if_neg (by decide), if_pos rfl]
  simp only [after_self, Option.bind_some, readHex_fmtX, Option.bind_eq_bind]

theorem hexDigit_space : ∀ n, n < 16 → hexDigit n ≠ ' ' := by decide

theorem space_hex4 (a b : UInt8) : ' ' ∉ hex4 a b := by
  have f := fun k => hexDigit_space (k % 16) (Nat.mod_lt _ (by omega))
  unfold hex4
  simp only [List.mem_cons, List.not_mem_nil, or_false, not_or]
  exact ⟨Ne.symm (f _), Ne.symm (f _), Ne.symm (f _), Ne.symm (f _)⟩

theorem manufacturer_read (m : ManufacturerSpecific) (h1 : ' ' ∉ m.manufacturer) (h2 : ' ' ∉ m.type) (h3 : ' ' ∉ m.id) :
    readText (manufacturerString m) = some (.manufacturer m.manufacturer m.type m.id) := by
  have e1 : "manufacturerSpecific manufacturer:".toList = "manufacturerSpecific".toList ++ ' ' :: "manufacturer:".toList := by
    decide
  have e2 : " type:".toList = ' ' :: "type:".toList := by decide
  have e3 : " id:".toList = ' ' :: "id:".toList := by decide
  have e4 : " (".toList = ' ' :: ['('] := by decide
  have hc : ":".toList = [':'] := by decide
  have hp : ")".toList = [')'] := by decide
  unfold readText manufacturerString
  rw [e1, e2, e3, e4, hc, hp]
  simp only [List.append_assoc, List.cons_append, List.nil_append]
  rw [words_of (label (by decide)), words_of2 (label (by decide)) h1, words_of2 (label (by decide)) h2,
    words_of2 (label (by decide)) h3, words_one (by simp [h1, h2, h3])]
  unfold readWords
  dsimp only
  rw [if_neg (by decide), if_neg (by decide), if_pos rfl]
  simp only [after_self, Option.bind_some, Option.bind_eq_bind]

theorem endpoints_read (m : MultiChannelEndpoints) :
    readText (endpointsString m) = some (.endpoints m.dynamic m.identical m.endpoints) := by
  have e1 : "multiChannelEndpoints dynamic:".toList = "multiChannelEndpoints".toList ++ ' ' :: "dynamic:".toList := by
    decide
  have e2 : " identical:".toList = ' ' :: "identical:".toList := by decide
  have e3 : " endpoints:".toList = ' ' :: "endpoints:".toList := by decide
  unfold readText endpointsString
  rw [e1, e2, e3]
  simp only [List.append_assoc, List.cons_append, List.nil_append]
  rw [words_of (label (by decide)), words_of2 (label (by decide)) (space_fmtT _),
    words_of2 (label (by decide)) (space_fmtT _), words_one2 (label (by decide)) (not_mem_itoa (by decide) _)]
  unfold readWords
  dsimp only
  rw [if_neg (by decide), if_neg (by decide), if_neg (by decide), if_pos rfl]
  simp only [after_self, Option.bind_some, readBool_fmtT, readDec_itoa, Option.bind_eq_bind]

/-- A first word that begins with `current:`. -/
theorem current_read (v : List Char) (ws : List (List Char)) :
    readWords (("current:".toList ++ v) :: ws) =
      match ws with
      | [] =>
        match readBool v with
        | some c => some (.binary c)
        | none => (readLevel v).map .level
      | a :: d :: ds => do
        let tgt ← after "target:".toList a
        let d0 ← after "duration:".toList d
        let dur ← readDuration (d0 :: ds)
        match readBool v with
        | some c => (readBool tgt).map fun t => .binaryTo c t dur
        | none => do
          let c ← readLevel v
          let t ← readLevel tgt
          some (.levelTo c t dur)
      | _ => none := by
  have hh : "current:".toList = 'c' :: "urrent:".toList := by decide
  conv => lhs; unfold readWords
  dsimp only
  rw [if_neg, if_neg, if_neg, if_neg, after_self]
  · rfl
  · rw [hh]; intro h; injection h with h1; revert h1; decide
  · rw [hh]; intro h; injection h with h1; revert h1; decide
  · rw [hh]; intro h; injection h with h1; revert h1; decide
  · rw [hh]; intro h; injection h with h1; revert h1; decide

/-- The end of the texts with a target. -/
theorem target_read {v t : List Char} (d : UInt8) (hv : ' ' ∉ v) (ht : ' ' ∉ t) :
    ∃ w ws, words ("current:".toList ++ (v ++ ' ' :: ("target:".toList ++ (t ++ ' ' :: ("duration:".toList ++ durationString d)))))
      = ("current:".toList ++ v) :: ("target:".toList ++ t) :: ("duration:".toList ++ w) :: ws ∧
      readDuration (w :: ws) = some (match duration d with | .ok s => some s | .error _ => none) := by
  obtain ⟨w, ws, h1, h2⟩ := read_durationString d
  refine ⟨w, ws, ?_, h2⟩
  rw [words_of2 (label (by decide)) hv, words_of2 (label (by decide)) ht]
  have : ∀ (l s : List Char), ' ' ∉ l → words (l ++ s) = (l ++ (words s).headD []) :: (words s).tail := by
    intro l s hl
    induction l with
    | nil =>
      cases h : words s with
      | nil => exact absurd h (words_ne s)
      | cons a b => simp [h]
    | cons c l ih =>
      rw [List.cons_append, words_cons (by rintro rfl; simp at hl), ih (fun h => hl (List.mem_cons_of_mem _ h))]
      simp
  rw [this _ _ (label (by decide)), h1]
  rfl

theorem secondsOf_table : ∀ n, n < 256 →
    (match duration (UInt8.ofNat n) with | .ok s => some s | .error _ => none) = secondsOf (UInt8.ofNat n) := by
  decide +kernel

theorem secondsOf_eq (d : UInt8) : (match duration d with | .ok s => some s | .error _ => none) = secondsOf d := by
  have := secondsOf_table d.toNat d.toNat_lt
  simpa using this

theorem binary_read (c : Bool) : readText ("current:".toList ++ fmtT c) = some (.binary c) := by
  unfold readText
  rw [words_one2 (label (by decide)) (space_fmtT _), current_read]
  simp only [readBool_fmtT]

theorem target_text : " target:".toList = ' ' :: "target:".toList ∧ " duration:".toList = ' ' :: "duration:".toList := by
  decide

theorem binaryTo_read (n : Nat) (x : Rat) (c t : Bool) (d : UInt8) :
    readText (reportString n x (.switchBinaryV2 c t d)) = some (.binaryTo c t (secondsOf d)) := by
  obtain ⟨w, ws, h1, h2⟩ := target_read d (space_fmtT c) (space_fmtT t)
  unfold readText reportString
  dsimp only
  rw [target_text.1, target_text.2]
  simp only [List.append_assoc, List.cons_append]
  rw [h1, current_read]
  simp only [after_self, Option.bind_some, Option.bind_eq_bind, h2, readBool_fmtT, secondsOf_eq, Option.map_some]

theorem unknown_read : readBool "unknown".toList = none ∧ readLevel "unknown".toList = some none := by decide

theorem level_read (n : Nat) (x : Rat) (c : Nat) (v : Bool) :
    readText (reportString n x (.switchMultilevelV1 c v)) = some (.level (if v then some (c * 1000000) else none)) := by
  unfold readText reportString
  dsimp only
  cases v with
  | true =>
    rw [if_pos rfl, words_one2 (label (by decide)) (space_fmtF _), current_read]
    simp only [readBool_fmtF, readLevel_fmtF_nat, if_true, Option.map_some]
  | false =>
    have : "current:unknown".toList = "current:".toList ++ "unknown".toList := by decide
    rw [if_neg (by decide), this, words_one2 (label (by decide)) (label (by decide)), current_read]
    dsimp only
    rw [unknown_read.1, unknown_read.2]
    rfl

theorem level_word (c : Nat) (v : Bool) : ∃ w, ' ' ∉ w ∧ readBool w = none ∧
    readLevel w = some (if v then some (c * 1000000) else none) ∧ w = if v then fmtF c else "unknown".toList := by
  cases v with
  | true => exact ⟨_, space_fmtF _, readBool_fmtF _, readLevel_fmtF_nat c, rfl⟩
  | false => exact ⟨_, label (by decide), unknown_read.1, unknown_read.2, rfl⟩

theorem levelTo_read (n : Nat) (x : Rat) (c t : Nat) (d : UInt8) (v tv : Bool) :
    readText (reportString n x (.switchMultilevelV4 c t d v tv)) =
      some (.levelTo (if v then some (c * 1000000) else none) (if tv then some (t * 1000000) else none) (secondsOf d)) := by
  obtain ⟨w1, a1, a2, a3, a4⟩ := level_word c v
  obtain ⟨w2, b1, b2, b3, b4⟩ := level_word t tv
  obtain ⟨w, ws, h1, h2⟩ := target_read d a1 b1
  have e : reportString n x (.switchMultilevelV4 c t d v tv) =
      "current:".toList ++ (w1 ++ ' ' :: ("target:".toList ++ (w2 ++ ' ' :: ("duration:".toList ++ durationString d)))) := by
    have k1 : "current:unknown ".toList = "current:".toList ++ ("unknown".toList ++ [' ']) := by decide
    have k2 : "target:unknown duration:".toList =
      "target:".toList ++ ("unknown".toList ++ ' ' :: "duration:".toList) := by decide
    have k3 : " ".toList = [' '] := by decide
    unfold reportString
    dsimp only
    rw [a4, b4, k1, k2, k3, target_text.2]
    cases v <;> cases tv <;>
      simp only [if_true, Bool.false_eq_true, if_false, List.append_assoc, List.cons_append, List.nil_append]
  unfold readText
  rw [e, h1, current_read]
  simp only [after_self, Option.bind_some, Option.bind_eq_bind, h2, a2, a3, b3, secondsOf_eq]

/-! ## Sensor readings -/

theorem type_table : ∀ n, n < 256 →
    ((sensorTypeName n).all fun s => !s.toList.contains ' ' && s.toList != "Unknown".toList) = true := by decide +kernel

theorem type_known (t : UInt8) {s : String} (h : sensorTypeName t.toNat = some s) :
    ' ' ∉ s.toList ∧ s.toList ≠ "Unknown".toList := by
  have := type_table t.toNat t.toNat_lt
  rw [h] at this
  simp only [Option.all_some, Bool.and_eq_true, Bool.not_eq_true', bne_iff_ne] at this
  exact ⟨label this.1, this.2⟩

theorem type_words (t : UInt8) (u : List Char) :
    ∃ a ws, words (sensorTypeString t ++ ' ' :: u) = a :: ws ∧
      ((a ≠ "Unknown".toList ∧ a = sensorTypeString t ∧ ws = words u) ∨
       (a = "Unknown".toList ∧ ∃ n, ws = n :: words u ∧ unwords [a, n] = sensorTypeString t)) := by
  unfold sensorTypeString
  cases h : sensorTypeName t.toNat with
  | some s =>
    have hk := type_known t h
    exact ⟨_, _, words_of hk.1, .inl ⟨hk.2, rfl, rfl⟩⟩
  | none =>
    dsimp only
    have e1 : "Unknown (".toList = "Unknown".toList ++ ' ' :: ['('] := by decide
    have e2 : ")".toList = [')'] := by decide
    rw [e1, e2]
    refine ⟨"Unknown".toList, _, ?_, .inr ⟨rfl, '(' :: (itoa t.toNat ++ [')']), rfl, ?_⟩⟩
    · simp only [List.append_assoc, List.cons_append, List.nil_append]
      rw [words_of (label (by decide))]
      congr 1
      have := words_of (w := '(' :: (itoa t.toNat ++ [')'])) (s := u)
        (by simp [not_mem_itoa (c := ' ') (by decide)])
      simpa only [List.append_assoc, List.cons_append, List.nil_append] using this
    · simp [unwords]

theorem sensor_read (x : Rat) (s : SensorMultiLevel) {t : UInt8} (ht : s.typeString = sensorTypeString t) :
    readText (sensorString x s) =
      some (.sensor (decide (x < 0)) (micro (if x < 0 then -x else x)) s.typeString s.unit) := by
  obtain ⟨a, ws, h1, h2⟩ := type_words t s.unit
  have k : " ".toList = [' '] := by decide
  unfold readText sensorString
  rw [k]
  simp only [List.append_assoc, List.cons_append, List.nil_append]
  rw [words_of (space_fmtF x), ht, h1]
  obtain ⟨c, w, hf, hc⟩ := fmtF_head x
  have letter : ∀ {c' : Char} {l : List Char}, c' ≠ '-' → c'.isDigit = false → ¬ fmtF x = c' :: l :=
    fun h1 h2 => fmtF_ne_letter x h1 h2
  have n1 : ¬ fmtF x = "wakeup".toList := by
    rw [show "wakeup".toList = 'w' :: "akeup".toList by decide]; exact letter (by decide) (by decide)
  have n2 : ¬ fmtF x = "alarm".toList := by
    rw [show "alarm".toList = 'a' :: "larm".toList by decide]; exact letter (by decide) (by decide)
  have n3 : ¬ fmtF x = "manufacturerSpecific".toList := by
    rw [show "manufacturerSpecific".toList = 'm' :: "anufacturerSpecific".toList by decide]
    exact letter (by decide) (by decide)
  have n4 : ¬ fmtF x = "multiChannelEndpoints".toList := by
    rw [show "multiChannelEndpoints".toList = 'm' :: "ultiChannelEndpoints".toList by decide]
    exact letter (by decide) (by decide)
  have hcur : after "current:".toList (fmtF x) = none := by
    have hh : "current:".toList = 'c' :: "urrent:".toList := by decide
    rw [hh, hf, after, if_neg]
    rintro rfl
    exact letter (by decide) (by decide) hf
  unfold readWords
  dsimp only
  rw [if_neg n1, if_neg n2, if_neg n3, if_neg n4, hcur]
  dsimp only
  rw [readSigned_fmtF]
  simp only [Option.bind_eq_bind, Option.bind_some]
  rcases h2 with ⟨q1, q2, q3⟩ | ⟨q1, n, q2, q3⟩
  · rw [if_neg q1, q2, q3, unwords_words]
  · rw [if_pos q1, q2]
    dsimp only
    rw [q3, unwords_words]

/-- The float64 nearest to a reading is close to it. -/
theorem float_bound {v : Int} {q x : Rat} {p : Nat} (hp : p ≤ 7) (hv1 : -(2 ^ 31) ≤ v) (hv2 : v < 2 ^ 31)
    (hq : q * ((10 ^ p : Nat) : Rat) = v) (hx : Nearest q x) : dist x q * ((2 ^ (20 + 3 * p) : Nat) : Rat) < 1 := by
  have hn : v.natAbs ≤ 2 ^ 31 := by omega
  have key : (v * 2 ^ (20 + 3 * p)).natAbs < 2 ^ 52 * 10 ^ p ∧ 20 + 3 * p ≤ 1074 := by
    rw [Int.natAbs_mul, Int.natAbs_pow]
    have : v.natAbs * (2 : Int).natAbs ^ (20 + 3 * p) ≤ 2 ^ 31 * 2 ^ (20 + 3 * p) := Nat.mul_le_mul hn (Nat.le_refl _)
    have h3 : ∀ p, p ≤ 7 → 2 ^ 31 * 2 ^ (20 + 3 * p) < 2 ^ 52 * 10 ^ p ∧ 20 + 3 * p ≤ 1074 := by decide
    have := h3 p hp
    omega
  obtain ⟨y, hy, hd⟩ := near (Nat.pow_pos (by omega)) hq key.2 key.1
  have hle := hx.2 y hy
  have hK : (0 : Rat) < ((2 ^ (20 + 3 * p) : Nat) : Rat) := by
    have : 0 < 2 ^ (20 + 3 * p) := Nat.pow_pos (by omega)
    exact_mod_cast this
  generalize ((2 ^ (20 + 3 * p) : Nat) : Rat) = K at *
  have : dist x q * K ≤ dist y q * K := Rat.mul_le_mul_of_nonneg_right hle (Rat.le_of_lt hK)
  grind

theorem dist_nonneg (a b : Rat) : 0 ≤ dist a b := by unfold dist; split <;> grind

/-- An integer of 32 bits is a float64. -/
theorem int_float {v : Int} (hv1 : -(2 ^ 31) ≤ v) (hv2 : v < 2 ^ 31) : IsFloat64 (v : Rat) :=
  ⟨v, 0, by omega, by omega, .inl ⟨by simp, by omega⟩⟩

/-- A reading with at most six decimals, in millionths. -/
theorem float_micro {v : Int} {q x : Rat} {p : Nat} (hp : p ≤ 6) (hv1 : -(2 ^ 31) ≤ v) (hv2 : v < 2 ^ 31)
    (hq : q * ((10 ^ p : Nat) : Rat) = v) (hx : Nearest q x) :
    dist (x * 1000000) ((v * 10 ^ (6 - p) : Int) : Rat) * 2 < 1 := by
  have hs : q * 1000000 = ((v * 10 ^ (6 - p) : Int) : Rat) := by
    have e : 10 ^ p * 10 ^ (6 - p) = 1000000 := by
      rw [← Nat.pow_add, show p + (6 - p) = 6 by omega]
    have e' : ((10 ^ p : Nat) : Rat) * ((10 ^ (6 - p) : Nat) : Rat) = 1000000 := by exact_mod_cast e
    have e'' : ((v * 10 ^ (6 - p) : Int) : Rat) = (v : Rat) * ((10 ^ (6 - p) : Nat) : Rat) := by simp
    rw [e'', ← hq, ← e']
    grind
  have hd : dist x q * 2000000 < 1 := by
    rcases Nat.eq_zero_or_pos p with rfl | hp0
    · have hqv : q = v := by simpa using hq
      have := hx.2 q (by rw [hqv]; exact int_float hv1 hv2)
      have h0 : dist q q = 0 := by unfold dist; rw [if_pos (by grind)]; grind
      grind
    · have hb := float_bound (by omega) hv1 hv2 hq hx
      have hk : 2000000 ≤ 2 ^ (20 + 3 * p) := by
        have : 2 ^ 21 ≤ 2 ^ (20 + 3 * p) := Nat.pow_le_pow_right (by omega) (by omega)
        omega
      have hk' : (2000000 : Rat) ≤ ((2 ^ (20 + 3 * p) : Nat) : Rat) := by exact_mod_cast hk
      have := Rat.mul_le_mul_of_nonneg_left hk' (dist_nonneg x q)
      grind
  rw [← hs]
  unfold dist at hd ⊢
  split <;> split at hd <;> grind

/-- `%f` of a number next to a whole number of millionths. -/
theorem shown_of {x : Rat} {w : Int} (h0 : w = 0 → x = 0) (h : dist (x * 1000000) (w : Rat) * 2 < 1) :
    decide (x < 0) = decide (w < 0) ∧ micro (if x < 0 then -x else x) = w.natAbs := by
  rcases Int.lt_trichotomy w 0 with hw | hw | hw
  · have hw' : (w : Rat) + 1 ≤ 0 := by exact_mod_cast (by omega : w + 1 ≤ 0)
    have hx : x < 0 := by unfold dist at h; split at h <;> grind
    refine ⟨by simp [hx, hw], ?_⟩
    rw [if_pos hx]
    apply micro_eq (by grind)
    have : ((w.natAbs : Nat) : Rat) = -(w : Rat) := by
      have : ((w.natAbs : Nat) : Int) = -w := by omega
      exact_mod_cast congrArg (fun z : Int => (z : Rat)) this
    rw [this]
    unfold dist at h ⊢
    split <;> split at h <;> grind
  · have := h0 hw
    subst this; subst hw
    refine ⟨by simp, ?_⟩
    have := micro_nat 0
    simpa using this
  · have hw' : (1 : Rat) ≤ (w : Rat) := by exact_mod_cast (by omega : 1 ≤ w)
    have hx : ¬ x < 0 := by unfold dist at h; split at h <;> grind
    have hw0 : ¬ w < 0 := by omega
    refine ⟨by simp [hx, hw0], ?_⟩
    rw [if_neg hx]
    apply micro_eq (by grind)
    have : ((w.natAbs : Nat) : Rat) = (w : Rat) := by
      have : ((w.natAbs : Nat) : Int) = w := by omega
      exact_mod_cast congrArg (fun z : Int => (z : Rat)) this
    rw [this]
    exact h

theorem nearest_zero {x : Rat} (h : Nearest 0 x) : x = 0 := by
  have := h.2 0 ⟨0, 0, by decide, by decide, .inl ⟨by simp, by omega⟩⟩
  unfold dist at this
  split at this <;> grind

theorem flags_table : ∀ n, n < 256 → (UInt8.ofNat n &&& 0x80 != 0) = n.testBit 7 ∧ (UInt8.ofNat n &&& 0x40 != 0) = n.testBit 6 := by
  decide +kernel

theorem flags (b : UInt8) : (b &&& 0x80 != 0) = b.toNat.testBit 7 ∧ (b &&& 0x40 != 0) = b.toNat.testBit 6 := by
  have := flags_table b.toNat b.toNat_lt
  simpa using this

theorem nibble_hexDigit : ∀ n, n < 16 → nibble (hexDigit n) = some n := by decide

theorem readHex_hex4 (a b : UInt8) : readHex (hex4 a b) = some (a.toNat * 256 + b.toNat) := by
  have ha := a.toNat_lt
  have hb := b.toNat_lt
  have f := fun k => nibble_hexDigit (k % 16) (Nat.mod_lt _ (by omega))
  unfold hex4 readHex
  simp only [List.foldl_cons, List.foldl_nil, f, Option.bind_some, Option.map_some]
  congr 1
  omega

theorem value_zero {q : Rat} {p : Nat} (h : q * ((10 ^ p : Nat) : Rat) = ((0 : Int) : Rat)) : q = 0 := by
  have hP : ((10 ^ p : Nat) : Rat) ≠ 0 := by
    have : 10 ^ p ≠ 0 := by have : 0 < 10 ^ p := Nat.pow_pos (by omega)
                            omega
    exact_mod_cast this
  have h0 : q * ((10 ^ p : Nat) : Rat) = 0 := by simpa using h
  rcases Rat.mul_eq_zero.1 h0 with h | h
  · exact h
  · exact absurd h hP

theorem typeString_of {t c : UInt8} {rest : List UInt8} {s : SensorMultiLevel}
    (h : newSensorMultiLevel (t :: c :: rest) = .ok s) : s.typeString = sensorTypeString t := by
  unfold newSensorMultiLevel at h
  dsimp only at h
  split at h
  · cases h
  · cases h; rfl

theorem seven_sign {v : Int} {x : Rat} (h0 : v = 0 → x = 0) (h : dist (x * ((10 ^ 7 : Nat) : Rat)) v * 2 < 1) :
    decide (x < 0) = decide (v < 0) := by
  have h10 : ((10 ^ 7 : Nat) : Rat) = 10000000 := by decide +kernel
  rw [h10] at h
  rcases Int.lt_trichotomy v 0 with hw | hw | hw
  · have hw' : (v : Rat) + 1 ≤ 0 := by exact_mod_cast (by omega : v + 1 ≤ 0)
    have hx : x < 0 := by unfold dist at h; split at h <;> grind
    simp [hx, hw]
  · have := h0 hw
    subst this; subst hw
    simp
  · have hw' : (1 : Rat) ≤ (v : Rat) := by exact_mod_cast (by omega : 1 ≤ v)
    have hx : ¬ x < 0 := by unfold dist at h; split at h <;> grind
    have : ¬ v < 0 := by omega
    simp [hx, this]

theorem seven_near {v : Int} {x : Rat} (h0 : v = 0 → x = 0) (h : dist (x * ((10 ^ 7 : Nat) : Rat)) v * 2 < 1) :
    micro (if x < 0 then -x else x) * 10 ≤ v.natAbs + 5 ∧ v.natAbs ≤ micro (if x < 0 then -x else x) * 10 + 5 := by
  have hs := seven_sign h0 h
  have h10 : ((10 ^ 7 : Nat) : Rat) = 10000000 := by decide +kernel
  rw [h10] at h
  have hs' : x < 0 ↔ v < 0 := by simpa using hs
  have ha : dist ((if x < 0 then -x else x) * 10000000) ((v.natAbs : Nat) : Rat) * 2 < 1 := by
    by_cases hx : x < 0
    · have hv := hs'.1 hx
      have : ((v.natAbs : Nat) : Rat) = -(v : Rat) := by
        have : ((v.natAbs : Nat) : Int) = -v := by omega
        exact_mod_cast congrArg (fun z : Int => (z : Rat)) this
      rw [if_pos hx, this]
      unfold dist at h ⊢
      split <;> split at h <;> grind
    · have hv : ¬ v < 0 := fun hv => hx (hs'.2 hv)
      have : ((v.natAbs : Nat) : Rat) = (v : Rat) := by
        have : ((v.natAbs : Nat) : Int) = v := by omega
        exact_mod_cast congrArg (fun z : Int => (z : Rat)) this
      rw [if_neg hx, this]
      exact h
  have hnn : 0 ≤ (if x < 0 then -x else x) := by split <;> grind
  have hm := micro_near hnn
  generalize (if x < 0 then -x else x) = a at *
  generalize micro a = m at *
  generalize v.natAbs = k at *
  have h1 : ((m * 10 : Nat) : Rat) < ((k + 6 : Nat) : Rat) := by
    simp only [Rat.natCast_mul, Rat.natCast_add]
    unfold dist at ha hm; split at ha <;> split at hm <;> grind
  have h2 : ((k : Nat) : Rat) < ((m * 10 + 6 : Nat) : Rat) := by
    simp only [Rat.natCast_mul, Rat.natCast_add]
    unfold dist at ha hm; split at ha <;> split at hm <;> grind
  have h1' := nat_cast_lt h1
  have h2' := nat_cast_lt h2
  omega

end Verif.Lemmas
