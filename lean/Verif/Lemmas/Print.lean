import Verif.Model.Print
import Verif.Spec.Print
import Verif.Props.SensorFloat

/-
Reading back what the verbs of `fmt.Sprintf` write.
-/

namespace Verif.Lemmas

open Verif.Go Verif.Model Verif.Spec

/-! ## Words -/

theorem words_ne (s : List Char) : words s ≠ [] := by
  cases s with
  | nil => simp [words]
  | cons c s => unfold words; split; · simp
                split <;> simp

theorem words_cons {c : Char} {s : List Char} (hc : c ≠ ' ') :
    words (c :: s) = (c :: (words s).headD []) :: (words s).tail := by
  rw [words, if_neg hc]
  cases h : words s with
  | nil => exact absurd h (words_ne s)
  | cons w ws => rfl

theorem words_of {w s : List Char} (hw : ' ' ∉ w) : words (w ++ ' ' :: s) = w :: words s := by
  induction w with
  | nil => simp [words]
  | cons c w ih =>
    rw [List.cons_append, words_cons (by rintro rfl; simp at hw), ih (fun h => hw (List.mem_cons_of_mem _ h))]
    rfl

theorem words_one {w : List Char} (hw : ' ' ∉ w) : words w = [w] := by
  induction w with
  | nil => rfl
  | cons c w ih =>
    rw [words_cons (by rintro rfl; simp at hw), ih (fun h => hw (List.mem_cons_of_mem _ h))]
    rfl

theorem unwords_words (s : List Char) : unwords (words s) = s := by
  induction s with
  | nil => rfl
  | cons c s ih =>
    cases h : words s with
    | nil => exact absurd h (words_ne s)
    | cons w ws =>
      rw [h] at ih
      by_cases hc : c = ' '
      · rw [words, if_pos hc, h, hc]
        show [] ++ ' ' :: unwords (w :: ws) = _
        rw [ih]; rfl
      · rw [words_cons hc, h]
        show unwords ((c :: w) :: ws) = _
        cases ws with
        | nil => simp only [unwords] at *; rw [ih]
        | cons w' ws => simp only [unwords, List.cons_append] at *; rw [ih]

theorem after_self (l w : List Char) : after l (l ++ w) = some w := by
  induction l with
  | nil => unfold after; rfl
  | cons a l ih => simp [after, ih]

/-! ## Numbers -/

theorem isDigit_itoa (n : Nat) : (itoa n).all Char.isDigit = true := by
  rw [List.all_eq_true]
  intro c hc
  exact Nat.isDigit_of_mem_toDigits (by decide) (by decide) hc

theorem fold_dec (w : List Char) (n : Nat) :
    w.foldl (fun n c => n * 10 + (c.toNat - 48)) n = Nat.ofDigitChars 10 w n := by
  induction w generalizing n with
  | nil => simp
  | cons c w ih => rw [List.foldl_cons, ih, Nat.ofDigitChars_cons]; congr 1; rw [Nat.mul_comm]; rfl

theorem readDec_itoa (n : Nat) : readDec (itoa n) = some n := by
  unfold readDec
  rw [if_pos ⟨(Nat.toDigits_ne_nil : itoa n ≠ []), isDigit_itoa n⟩, fold_dec]
  exact congrArg some Nat.ofDigitChars_ten_toDigits

theorem digitChar_facts : ∀ d, d < 10 → (Nat.digitChar d).isDigit = true ∧ (Nat.digitChar d).toNat - 48 = d := by
  decide

theorem readDec_six (n : Nat) (h : n < 1000000) : readDec (six n) = some n ∧ (six n).length = 6 := by
  refine ⟨?_, rfl⟩
  have f := fun k => digitChar_facts (k % 10) (Nat.mod_lt _ (by omega))
  unfold readDec six
  rw [if_pos]
  · simp only [List.map_cons, List.map_nil, List.foldl_cons, List.foldl_nil, (f _).2]
    congr 1
    omega
  · refine ⟨by simp, ?_⟩
    simp [(f _).1]

theorem cut_of {c : Char} {w s : List Char} (h : c ∉ w) : cut c (w ++ c :: s) = some (w, s) := by
  induction w with
  | nil => simp [cut]
  | cons a w ih =>
    have ha : a ≠ c := by rintro rfl; simp at h
    rw [List.cons_append, cut, if_neg ha, ih (fun h' => h (List.mem_cons_of_mem _ h'))]
    rfl

theorem cut_none {c : Char} {w : List Char} (h : c ∉ w) : cut c w = none := by
  induction w with
  | nil => rfl
  | cons a w ih =>
    have ha : a ≠ c := by rintro rfl; simp at h
    rw [cut, if_neg ha, ih (fun h' => h (List.mem_cons_of_mem _ h'))]
    rfl

theorem not_mem_itoa {c : Char} (hc : c.isDigit = false) (n : Nat) : c ∉ itoa n := by
  intro h
  have := List.all_eq_true.1 (isDigit_itoa n) c h
  rw [hc] at this
  cases this

theorem six_digits (n : Nat) : (six n).all Char.isDigit = true := by
  have f := fun k => digitChar_facts (k % 10) (Nat.mod_lt _ (by omega))
  unfold six
  simp [(f _).1]

theorem not_mem_six {c : Char} (hc : c.isDigit = false) (n : Nat) : c ∉ six n := by
  intro h
  have := List.all_eq_true.1 (six_digits n) c h
  rw [hc] at this
  cases this

theorem readMicro_of (m : Nat) : readMicro (itoa (m / 1000000) ++ '.' :: six (m % 1000000)) = some m := by
  unfold readMicro
  rw [cut_of (not_mem_itoa (by decide) _)]
  have h6 := readDec_six (m % 1000000) (Nat.mod_lt _ (by omega))
  simp only [Option.bind_eq_bind, Option.bind_some, readDec_itoa, h6.1, h6.2, if_true]
  congr 1
  omega

/-- The first character of a number. -/
theorem itoa_cons (n : Nat) : ∃ c w, itoa n = c :: w ∧ c.isDigit = true := by
  have h := isDigit_itoa n
  cases e : itoa n with
  | nil => exact absurd e ((Nat.toDigits_ne_nil : itoa n ≠ []))
  | cons c w => rw [e] at h; simp at h; exact ⟨c, w, rfl, h.1⟩

theorem fmtF_nonneg {x : Rat} (h : ¬ x < 0) :
    fmtF x = itoa (micro x / 1000000) ++ '.' :: six (micro x % 1000000) := by
  unfold fmtF; simp [h]

theorem fmtF_neg {x : Rat} (h : x < 0) :
    fmtF x = '-' :: (itoa (micro (-x) / 1000000) ++ '.' :: six (micro (-x) % 1000000)) := by
  unfold fmtF; simp [h]

theorem space_fmtF (x : Rat) : ' ' ∉ fmtF x := by
  have a : ∀ m, ' ' ∉ itoa (m / 1000000) ++ '.' :: six (m % 1000000) := by
    intro m h
    rcases List.mem_append.1 h with h | h
    · exact not_mem_itoa (by decide) _ h
    · rcases List.mem_cons.1 h with h | h
      · cases h
      · exact not_mem_six (by decide) _ h
  by_cases h : x < 0
  · rw [fmtF_neg h]
    intro hm
    rcases List.mem_cons.1 hm with hm | hm
    · cases hm
    · exact a _ hm
  · rw [fmtF_nonneg h]; exact a _

theorem readSigned_fmtF (x : Rat) :
    readSigned (fmtF x) = some (decide (x < 0), micro (if x < 0 then -x else x)) := by
  by_cases h : x < 0
  · rw [fmtF_neg h]
    simp [readSigned, readMicro_of, h]
  · rw [fmtF_nonneg h]
    obtain ⟨c, w, e, hc⟩ := itoa_cons (micro x / 1000000)
    have hm := readMicro_of (micro x)
    rw [e] at hm ⊢
    have : c ≠ '-' := by rintro rfl; revert hc; decide
    rw [List.cons_append] at hm ⊢
    unfold readSigned
    split
    · next heq => injection heq with h1; exact absurd h1 this
    · simp [hm, h]

/-- A number does not begin with a letter. -/
theorem fmtF_head (x : Rat) : ∃ c w, fmtF x = c :: w ∧ (c = '-' ∨ c.isDigit = true) := by
  by_cases h : x < 0
  · rw [fmtF_neg h]; exact ⟨_, _, rfl, .inl rfl⟩
  · rw [fmtF_nonneg h]
    obtain ⟨c, w, e, hc⟩ := itoa_cons (micro x / 1000000)
    rw [e]; exact ⟨c, _, rfl, .inr hc⟩

/-! ## Rounding -/

theorem floor_nat {a : Rat} (h : 0 ≤ a) : ((a.floor.toNat : Nat) : Rat) ≤ a ∧ a < ((a.floor.toNat : Nat) : Rat) + 1 := by
  have h0 : 0 ≤ a.floor := by rw [Rat.le_floor_iff]; exact_mod_cast h
  have e : ((a.floor.toNat : Nat) : Rat) = ((a.floor : Int) : Rat) := by
    have : ((a.floor.toNat : Nat) : Int) = a.floor := Int.toNat_of_nonneg h0
    exact_mod_cast congrArg (fun z : Int => (z : Rat)) this
  rw [e]
  refine ⟨Rat.floor_le a, ?_⟩
  have := Rat.lt_floor (x := a)
  grind

/-- What `%f` keeps is within half a millionth. -/
theorem micro_near {a : Rat} (h : 0 ≤ a) : dist (a * 1000000) (micro a) * 2 ≤ 1 := by
  have hz : 0 ≤ a * 1000000 := by grind
  obtain ⟨f1, f2⟩ := floor_nat hz
  unfold micro
  dsimp only
  generalize (a * 1000000).floor.toNat = f at *
  have hc : ((f + 1 : Nat) : Rat) = (f : Rat) + 1 := by simp
  unfold dist
  split
  · split <;> grind
  · split
    · rw [hc]; split <;> grind
    · split
      · split <;> grind
      · rw [hc]; split <;> grind

theorem nat_cast_lt {a b : Nat} (h : (a : Rat) < b) : a < b := by exact_mod_cast h

/-- The only whole number of millionths closer than half. -/
theorem micro_eq {a : Rat} {w : Nat} (h : 0 ≤ a) (hw : dist (a * 1000000) w * 2 < 1) : micro a = w := by
  have hz : 0 ≤ a * 1000000 := by grind
  have hn := micro_near h
  have h1 : (micro a : Rat) < (w : Rat) + 1 := by
    unfold dist at hn hw; split at hn <;> split at hw <;> grind
  have h2 : (w : Rat) < (micro a : Rat) + 1 := by
    unfold dist at hn hw; split at hn <;> split at hw <;> grind
  have h1' : micro a < w + 1 := nat_cast_lt (by simpa using h1)
  have h2' : w < micro a + 1 := nat_cast_lt (by simpa using h2)
  omega

theorem micro_nat (n : Nat) : micro (n : Rat) = n * 1000000 := by
  apply micro_eq
  · exact_mod_cast Nat.zero_le n
  · unfold dist
    have : ((n * 1000000 : Nat) : Rat) = (n : Rat) * 1000000 := by simp
    rw [this, if_pos (by grind)]
    grind

theorem nat_not_neg (n : Nat) : ¬ ((n : Rat) < 0) := by
  rw [Rat.not_lt]; exact_mod_cast Nat.zero_le n

theorem readMicro_fmtF_nat (n : Nat) : readMicro (fmtF (n : Rat)) = some (n * 1000000) := by
  rw [fmtF_nonneg (nat_not_neg n), readMicro_of, micro_nat]

theorem fmtF_ne_letter (x : Rat) {c : Char} {w : List Char} (h1 : c ≠ '-') (h2 : c.isDigit = false) : fmtF x ≠ c :: w := by
  obtain ⟨c', w', e, hc⟩ := fmtF_head x
  rw [e]
  rintro ⟨⟩
  rcases hc with hc | hc
  · exact h1 hc
  · rw [h2] at hc; cases hc

theorem readLevel_fmtF_nat (n : Nat) : readLevel (fmtF (n : Rat)) = some (some (n * 1000000)) := by
  unfold readLevel
  rw [if_neg (fmtF_ne_letter _ (by decide) (by decide)), readMicro_fmtF_nat]
  rfl

theorem readBool_fmtF (x : Rat) : readBool (fmtF x) = none := by
  unfold readBool
  rw [if_neg (fmtF_ne_letter _ (by decide) (by decide)), if_neg (fmtF_ne_letter _ (by decide) (by decide))]

/-! ## Bytes, truth values -/

theorem fmtX_table : ∀ n, n < 256 →
    readHex (fmtX (UInt8.ofNat n)) = some n ∧ ' ' ∉ fmtX (UInt8.ofNat n) := by decide +kernel

theorem readHex_fmtX (b : UInt8) : readHex (fmtX b) = some b.toNat := by
  have := (fmtX_table b.toNat b.toNat_lt).1
  simpa using this

theorem space_fmtX (b : UInt8) : ' ' ∉ fmtX b := by
  have := (fmtX_table b.toNat b.toNat_lt).2
  simpa using this

theorem readBool_fmtT (b : Bool) : readBool (fmtT b) = some b := by cases b <;> decide

theorem space_fmtT (b : Bool) : ' ' ∉ fmtT b := by cases b <;> decide

/-! ## Durations -/

theorem readHms_fmt (s : Nat) : readHms (fmtDuration s) = some s := by
  have nd : ∀ (c : Char) (n : Nat), c.isDigit = false → c ∉ itoa n := fun c n h => not_mem_itoa h n
  unfold fmtDuration
  split
  · have h1 : cut 'h' (itoa s ++ ['s']) = none := cut_none (by simp [nd])
    have h2 : cut 'm' (itoa s ++ ['s']) = none := cut_none (by simp [nd])
    have h3 : cut 's' (itoa s ++ ['s']) = some (itoa s, []) := cut_of (nd _ _ (by decide))
    simp [readHms, h1, h2, h3, readDec_itoa]
  · split
    · have h1 : cut 'h' (itoa (s / 60) ++ 'm' :: itoa (s % 60) ++ ['s']) = none := cut_none (by simp [nd])
      have h2 : cut 'm' (itoa (s / 60) ++ 'm' :: itoa (s % 60) ++ ['s']) = some (itoa (s / 60), itoa (s % 60) ++ ['s']) := by
        rw [List.append_assoc]; exact cut_of (nd _ _ (by decide))
      have h3 : cut 's' (itoa (s % 60) ++ ['s']) = some (itoa (s % 60), []) := cut_of (nd _ _ (by decide))
      simp only [readHms, h1, h2, h3, readDec_itoa, Option.map_none, Option.map_some, Option.getD_none,
        Option.getD_some, Option.bind_eq_bind, Option.bind_some, if_true]
      congr 1; omega
    · have h1 : cut 'h' (itoa (s / 3600) ++ 'h' :: itoa (s / 60 % 60) ++ 'm' :: itoa (s % 60) ++ ['s']) =
          some (itoa (s / 3600), itoa (s / 60 % 60) ++ 'm' :: itoa (s % 60) ++ ['s']) := by
        simp only [List.append_assoc, List.cons_append]; exact cut_of (nd _ _ (by decide))
      have h2 : cut 'm' (itoa (s / 60 % 60) ++ 'm' :: itoa (s % 60) ++ ['s']) =
          some (itoa (s / 60 % 60), itoa (s % 60) ++ ['s']) := by
        rw [List.append_assoc]; exact cut_of (nd _ _ (by decide))
      have h3 : cut 's' (itoa (s % 60) ++ ['s']) = some (itoa (s % 60), []) := cut_of (nd _ _ (by decide))
      simp only [readHms, h1, h2, h3, readDec_itoa, Option.map_some,
        Option.getD_some, Option.bind_eq_bind, Option.bind_some, if_true]
      congr 1; omega

theorem space_fmtDuration (s : Nat) : ' ' ∉ fmtDuration s := by
  have nd : ∀ (n : Nat), ' ' ∉ itoa n := fun n => not_mem_itoa (by decide) n
  unfold fmtDuration
  split
  · simp [nd]
  · split <;> simp [nd]

/-- The words after `duration:`. -/
theorem read_durationString (d : UInt8) :
    ∃ w ws, words (durationString d) = w :: ws ∧
      readDuration (w :: ws) = some (match duration d with | .ok s => some s | .error _ => none) := by
  unfold durationString
  cases h : duration d with
  | ok s =>
    refine ⟨fmtDuration s, [], words_one (space_fmtDuration s), ?_⟩
    simp [readDuration, readHms_fmt]
  | error e =>
    have hw : words "Factory default duration".toList = ["Factory".toList, "default".toList, "duration".toList] := by
      decide
    refine ⟨_, _, hw, ?_⟩
    have : readDuration ["Factory".toList, "default".toList, "duration".toList] = some none := by decide
    exact this

end Verif.Lemmas
