import Verif.Model.Persist
import Verif.Spec.Persist
import Verif.Lemmas.Json

/-! Numbers in the configuration file. -/

set_option linter.unusedSimpArgs false

namespace Verif.Lemmas.Persist

open Verif.Model Verif.Spec Verif.Lemmas.JsonL

theorem isDig_eq (c : Char) : isDig c = c.isDigit := by
  unfold isDig Char.isDigit
  rfl

theorem digits_all {ds r : List Char} (h : ds.all isDig = true) (hr : ∀ c, r.head? = some c → isDig c = false) :
    digits (ds ++ r) = (ds, r) := by
  induction ds with
  | nil =>
    cases r with
    | nil => rfl
    | cons c r => rw [List.nil_append, digits, if_neg (by simp [hr c rfl])]
  | cons d ds ih =>
    simp only [List.all_cons, Bool.and_eq_true] at h
    rw [List.cons_append, digits, if_pos h.1, ih h.2]

/-- Sign, integer part, fraction and exponent of a number. -/
structure Parts (sg i f e : List Char) : Prop where
  sign : sg = [] ∨ sg = ['-']
  int : i.all isDig = true
  ne : i ≠ []
  zero : i.head? = some '0' → i = ['0']
  frac : f = [] ∨ ∃ fd, f = '.' :: fd ∧ fd.all isDig = true ∧ fd ≠ []
  exp : e = [] ∨ e = ['e', '-', '7']

theorem Parts.rest {sg i f e : List Char} (h : Parts sg i f e) {r : List Char} (hr : Stop r) :
    (∀ c, (f ++ e ++ r).head? = some c → isDig c = false) ∧ (∀ c, (e ++ r).head? = some c → isDig c = false) ∧
    ∀ c, (e ++ r).head? = some c → c ≠ '.' := by
  have h2 : (∀ c, (e ++ r).head? = some c → isDig c = false) ∧ ∀ c, (e ++ r).head? = some c → c ≠ '.' := by
    rcases h.exp with rfl | rfl
    · exact ⟨fun c hc => (hr c hc).1, fun c hc => (hr c hc).2.1⟩
    · constructor <;> (intro c hc; simp at hc; subst hc; decide)
  refine ⟨?_, h2⟩
  rcases h.frac with rfl | ⟨fd, rfl, _, _⟩
  · simpa using h2.1
  · intro c hc; simp at hc; subst hc; decide

theorem Parts.numSign {sg i f e : List Char} (h : Parts sg i f e) (t : List Char) :
    numSign (sg ++ (i ++ t)) = (sg, i ++ t) := by
  rcases h.sign with rfl | rfl
  · obtain ⟨c, s, hi⟩ := List.exists_cons_of_ne_nil h.ne
    have hc : isDig c = true := by
      have := h.int
      rw [hi] at this
      simp only [List.all_cons, Bool.and_eq_true] at this
      exact this.1
    rw [List.nil_append, hi, List.cons_append, numSign.eq_2]
    intro s' e'
    injection e' with e' _
    subst e'
    exact absurd hc (by decide)
  · rfl

theorem Parts.numOk {sg i f e : List Char} (h : Parts sg i f e) : NumOk (sg ++ i ++ f ++ e) := by
  constructor
  · intro r hr
    obtain ⟨h1, h2, h3⟩ := h.rest hr
    unfold pNumber
    have e0 : sg ++ i ++ f ++ e ++ r = sg ++ (i ++ (f ++ e ++ r)) := by simp
    rw [e0, h.numSign]
    dsimp only
    rw [digits_all h.int h1]
    dsimp only
    rw [if_neg (by rintro (h4 | ⟨h4, h5⟩); exact h.ne h4; exact h5 (h.zero h4))]
    have hf : pFrac (f ++ e ++ r) = some (f, e ++ r) := by
      rcases h.frac with rfl | ⟨fd, rfl, hd, hn⟩
      · rw [List.nil_append, pFrac.eq_2]
        intro s es
        exact h3 '.' (by rw [es]; rfl) rfl
      · rw [List.append_assoc, List.cons_append, pFrac, digits_all hd h2]
        dsimp only
        rw [if_neg hn]
    rw [hf, Option.bind_some]
    dsimp only
    have he : pExp (e ++ r) = some (e, r) := by
      rcases h.exp with rfl | rfl
      · cases r with
        | nil => rfl
        | cons c r =>
          have := hr c rfl
          rw [List.nil_append, pExp, if_neg (by rintro (e | e); exact this.2.2.1 e; exact this.2.2.2 e)]
      · have : digits (['7'] ++ r) = (['7'], r) := digits_all (by decide) (fun c hc => (hr c hc).1)
        have h7 : digits ('7' :: r) = (['7'], r) := this
        simp only [List.cons_append, List.nil_append]
        rw [pExp, if_pos (.inl rfl), expSign, h7]
        simp
    rw [he, Option.map_some]
  · obtain ⟨c, s, hi⟩ := List.exists_cons_of_ne_nil h.ne
    have hc : isDig c = true := by
      have := h.int
      rw [hi] at this
      simp only [List.all_cons, Bool.and_eq_true] at this
      exact this.1
    rcases h.sign with rfl | rfl
    · exact ⟨c, s ++ f ++ e, by rw [hi]; rfl, .inl hc⟩
    · exact ⟨'-', i ++ f ++ e, rfl, .inr rfl⟩

theorem itoa_all (n : Nat) : (itoa n).all isDig = true := by
  rw [List.all_eq_true]
  intro c hc
  rw [isDig_eq]
  exact Nat.isDigit_of_mem_toDigits (by decide) (by decide) hc

theorem itoa_ne (n : Nat) : itoa n ≠ [] := Nat.toDigits_ne_nil

theorem itoa_head : ∀ n, 0 < n → (itoa n).head? ≠ some '0' := by
  intro n
  induction n using Nat.strongRecOn with
  | ind n ih =>
    intro hn
    unfold itoa at ih ⊢
    by_cases h : n < 10
    · rw [Nat.toDigits_of_lt_base h]
      have : ∀ k : Fin 10, 0 < k.1 → [Nat.digitChar k.1].head? ≠ some '0' := by decide
      exact this ⟨n, h⟩ hn
    · rw [Nat.toDigits_of_base_le (by decide) (by omega)]
      have := ih (n / 10) (by omega) (by omega)
      obtain ⟨c, s, e⟩ := List.exists_cons_of_ne_nil (itoa_ne (n / 10))
      unfold itoa at e
      rw [e] at this ⊢
      simpa using this

theorem itoa_zero (n : Nat) (h : (itoa n).head? = some '0') : itoa n = ['0'] := by
  rcases Nat.eq_zero_or_pos n with rfl | hn
  · exact Nat.toDigits_zero 10
  · exact absurd h (itoa_head n hn)

theorem itoa_val (n : Nat) : Nat.ofDigitChars 10 (itoa n) 0 = n := Nat.ofDigitChars_ten_toDigits

theorem parts_itoa (n : Nat) : Parts [] (itoa n) [] [] :=
  ⟨.inl rfl, itoa_all n, itoa_ne n, itoa_zero n, .inl rfl, .inl rfl⟩

theorem numOk_itoa (n : Nat) : NumOk (itoa n) := by simpa using (parts_itoa n).numOk

theorem numOk_intLit (i : Int) : NumOk (intLit i) := by
  cases i with
  | ofNat n => exact numOk_itoa n
  | negSucc n =>
    have := (show Parts ['-'] (itoa (n + 1)) [] [] from
      ⟨.inr rfl, itoa_all _, itoa_ne _, itoa_zero _, .inl rfl, .inl rfl⟩).numOk
    simpa [intLit] using this

theorem numSign_itoa (n : Nat) : numSign (itoa n) = ([], itoa n) := by
  have := (parts_itoa n).numSign []
  simpa using this

theorem intOf_intLit (i : Int) (h : -(2 ^ 63) ≤ i ∧ i < 2 ^ 63) : intOf (intLit i) = some i := by
  unfold intOf
  cases i with
  | ofNat n =>
    rw [intLit, numSign_itoa]
    dsimp only
    rw [if_pos (itoa_all n), itoa_val, if_pos rfl, if_pos (show -(2 ^ 63) ≤ (n : Int) ∧ (n : Int) < 2 ^ 63 from h)]
    rfl
  | negSucc n =>
    rw [intLit, numSign]
    dsimp only
    rw [if_pos (itoa_all _), itoa_val, if_neg (show ¬ (['-'] = ([] : List Char)) by simp)]
    have : -((n + 1 : Nat) : Int) = Int.negSucc n := rfl
    rw [this, if_pos h]

theorem byteOf_itoa (b : UInt8) : byteOf (itoa b.toNat) = some b := by
  unfold byteOf
  rw [if_pos (itoa_all _)]
  dsimp only
  rw [itoa_val, if_pos b.toNat_lt]
  simp

/-! ### state values -/

theorem trimZeros_spec (s : List Char) : ∃ k, s = trimZeros s ++ List.replicate k '0' := by
  unfold trimZeros
  refine ⟨(s.reverse.takeWhile (· == '0')).length, ?_⟩
  have h1 : s.reverse.takeWhile (· == '0') = List.replicate (s.reverse.takeWhile (· == '0')).length '0' := by
    rw [List.eq_replicate_iff]
    refine ⟨rfl, ?_⟩
    intro b hb
    have := List.all_takeWhile (l := s.reverse) (p := (· == '0'))
    rw [List.all_eq_true] at this
    simpa using this b hb
  have h2 : s = (s.reverse.dropWhile (· == '0')).reverse ++ (s.reverse.takeWhile (· == '0')).reverse := by
    rw [← List.reverse_append, List.takeWhile_append_dropWhile, List.reverse_reverse]
  generalize s.reverse.takeWhile (· == '0') = w at h1 h2 ⊢
  rw [h1, List.reverse_replicate] at h2
  exact h2

theorem seven_val (n init : Nat) (h : n < 10000000) : Nat.ofDigitChars 10 (sevenDigits n) init = init * 10000000 + n := by
  unfold sevenDigits
  simp only [List.map_cons, List.map_nil]
  rw [Nat.ofDigitChars_cons_digitChar_of_lt_ten (by omega), Nat.ofDigitChars_cons_digitChar_of_lt_ten (by omega),
    Nat.ofDigitChars_cons_digitChar_of_lt_ten (by omega), Nat.ofDigitChars_cons_digitChar_of_lt_ten (by omega),
    Nat.ofDigitChars_cons_digitChar_of_lt_ten (by omega), Nat.ofDigitChars_cons_digitChar_of_lt_ten (by omega),
    Nat.ofDigitChars_cons_digitChar_of_lt_ten (by omega), Nat.ofDigitChars_nil]
  omega

theorem digitChar_dig {k : Nat} (h : k < 10) : isDig (Nat.digitChar k) = true := by
  have : ∀ k : Fin 10, isDig (Nat.digitChar k.1) = true := by decide
  exact this ⟨k, h⟩

theorem seven_all (n : Nat) : (sevenDigits n).all isDig = true := by
  unfold sevenDigits
  simp only [List.map_cons, List.map_nil, List.all_cons, List.all_nil, Bool.and_true, Bool.and_eq_true]
  refine ⟨?_, ?_, ?_, ?_, ?_, ?_, ?_⟩ <;> exact digitChar_dig (Nat.mod_lt _ (by decide))

/-- How a number of ten-millionths is written: the digits and how many of them are decimals. -/
theorem fmt_parts (m : Nat) : ∃ i f e, (∀ sg, sg = [] ∨ sg = ['-'] → Parts sg i f e) ∧
    fmtTenMillionths m = i ++ f ++ e ∧
    ((e = [] ∧ Nat.ofDigitChars 10 (i ++ f.tail) 0 * 10 ^ (7 - f.tail.length) = m * 1 ∧ f.tail.length ≤ 7) ∨
      (e = ['e', '-', '7'] ∧ f = [] ∧ Nat.ofDigitChars 10 i 0 = m)) := by
  unfold fmtTenMillionths
  by_cases h0 : m = 0
  · subst h0
    refine ⟨['0'], [], [], fun sg h => ⟨h, by decide, by decide, fun _ => rfl, .inl rfl, .inl rfl⟩, rfl, .inl ⟨rfl, ?_, ?_⟩⟩
      <;> decide
  rw [if_neg h0]
  by_cases h1 : m < 10
  · rw [if_pos h1]
    refine ⟨[Nat.digitChar m], [], ['e', '-', '7'], fun sg h => ⟨h, ?_, by simp, ?_, .inl rfl, .inr rfl⟩, rfl,
      .inr ⟨rfl, rfl, ?_⟩⟩
    · simp [digitChar_dig h1]
    · intro h; simp at h; rw [h]; rfl
    · rw [Nat.ofDigitChars_cons_digitChar_of_lt_ten h1, Nat.ofDigitChars_nil]; omega
  rw [if_neg h1]
  dsimp only
  have hlt : m % 10000000 < 10000000 := Nat.mod_lt _ (by decide)
  obtain ⟨k, hk⟩ := trimZeros_spec (sevenDigits (m % 10000000))
  have hlen : (trimZeros (sevenDigits (m % 10000000))).length + k = 7 := by
    have := congrArg List.length hk
    simp only [List.length_append, List.length_replicate] at this
    rw [← this]; rfl
  have hall := seven_all (m % 10000000)
  have hval := seven_val (m % 10000000) (m / 10000000) hlt
  rw [hk] at hall hval
  rw [Nat.ofDigitChars_append, Nat.ofDigitChars_replicate_zero] at hval
  generalize trimZeros (sevenDigits (m % 10000000)) = f at *
  have hk7 : 7 - f.length = k := by omega
  have hm : Nat.ofDigitChars 10 (itoa (m / 10000000) ++ f) 0 * 10 ^ (7 - f.length) = m * 1 := by
    rw [Nat.ofDigitChars_append, itoa_val, hk7, Nat.mul_comm, hval]
    omega
  by_cases hf : f = []
  · subst hf
    refine ⟨itoa (m / 10000000), [], [], fun sg h => ⟨h, itoa_all _, itoa_ne _, itoa_zero _, .inl rfl, .inl rfl⟩, by simp,
      .inl ⟨rfl, by simpa using hm, by simp⟩⟩
  · rw [if_neg hf]
    refine ⟨itoa (m / 10000000), '.' :: f, [], fun sg h => ⟨h, itoa_all _, itoa_ne _, itoa_zero _, .inr ⟨f, rfl, ?_, hf⟩,
      .inl rfl⟩, by simp, .inl ⟨rfl, by simpa using hm, by simp; omega⟩⟩
    simp only [List.all_append, Bool.and_eq_true] at hall
    exact hall.1

theorem stop_exp (e : List Char) (h : e = [] ∨ e = ['e', '-', '7']) : (∀ c, e.head? = some c → isDig c = false) ∧
    ∀ c, e.head? = some c → c ≠ '.' := by
  rcases h with rfl | rfl
  · exact ⟨(fun c h => by cases h), fun c h => by cases h⟩
  · constructor <;> (intro c hc; simp at hc; subst hc; decide)

theorem floatOf_parts {sg i f e : List Char} (h : Parts sg i f e) :
    floatOf (sg ++ i ++ f ++ e) =
      (let e' := expOf e - f.tail.length
       let m : Rat := (Nat.ofDigitChars 10 (i ++ f.tail) 0 : Nat)
       let v := if 0 ≤ e' then m * (10 ^ e'.toNat : Nat) else m / (10 ^ (-e').toNat : Nat)
       if v < ((2 ^ 1024 - 2 ^ 970 : Nat) : Rat) then some (if sg = [] then v else -v) else none) := by
  have e0 : sg ++ i ++ f ++ e = sg ++ (i ++ (f ++ e)) := by simp
  obtain ⟨h1, h2, h3⟩ := h.rest stop_nil
  simp only [List.append_nil] at h1 h2 h3
  have hfr : fracOf (f ++ e) = (f.tail, e) := by
    rcases h.frac with rfl | ⟨fd, rfl, hd, _⟩
    · rw [List.nil_append, fracOf.eq_2]
      · rfl
      · intro s es
        exact h3 '.' (by rw [es]; rfl) rfl
    · rw [List.cons_append, fracOf, digits_all hd h2]; rfl
  unfold floatOf
  rw [e0, h.numSign]
  dsimp only
  rw [digits_all h.int h1]
  dsimp only
  rw [hfr]

theorem rat_num_int (m : Int) : ((m : Rat)).num = m := by simp

theorem fmtFloat_parts {q : Rat} (h : Decimal7 q) : ∃ sg i f e, Parts sg i f e ∧ fmtFloat q = sg ++ i ++ f ++ e := by
  obtain ⟨i, f, e, h1, h2, _⟩ := fmt_parts (q * 10000000).num.natAbs
  unfold fmtFloat
  dsimp only
  split
  · exact ⟨['-'], i, f, e, h1 _ (.inr rfl), by rw [h2]; simp⟩
  · exact ⟨[], i, f, e, h1 _ (.inl rfl), by rw [h2]; simp⟩

theorem numOk_fmtFloat (q : Rat) : NumOk (fmtFloat q) := by
  obtain ⟨i, f, e, h1, h2, _⟩ := fmt_parts (q * 10000000).num.natAbs
  unfold fmtFloat
  dsimp only
  split
  · have := (h1 _ (.inr rfl)).numOk
    rw [h2]; simpa using this
  · have := (h1 _ (.inl rfl)).numOk
    rw [h2]; simpa using this

theorem pow_split (a : Nat) (h : a ≤ 7) : 10 ^ a * 10 ^ (7 - a) = (10000000 : Nat) := by
  rw [← Nat.pow_add]
  have : a + (7 - a) = 7 := by omega
  rw [this]

theorem value_eq {M m a : Nat} (h : M * 10 ^ (7 - a) = m) (ha : a ≤ 7) : (M : Rat) / (10 ^ a : Nat) = (m : Rat) / 10000000 := by
  have h1 := pow_split a ha
  have h2 : ((10 ^ a : Nat) : Rat) * ((10 ^ (7 - a) : Nat) : Rat) = 10000000 := by
    rw [← Rat.natCast_mul, h1]; rfl
  have h3 : (M : Rat) * ((10 ^ (7 - a) : Nat) : Rat) = (m : Rat) := by rw [← Rat.natCast_mul, h]
  have h4 : ((10 ^ a : Nat) : Rat) ≠ 0 := by
    intro h0; rw [h0] at h2; simp at h2
  generalize ((10 ^ a : Nat) : Rat) = x at *
  generalize ((10 ^ (7 - a) : Nat) : Rat) = y at *
  grind

theorem floatOf_fmtFloat {q : Rat} (h : Decimal7 q) : floatOf (fmtFloat q) = some q := by
  obtain ⟨m, hq, hm⟩ := h
  have hnum : (q * 10000000).num = m := by
    have : q * 10000000 = (m : Rat) := by rw [hq]; grind
    rw [this]; exact rat_num_int m
  have key : ∀ sg, sg = [] ∨ sg = ['-'] → floatOf (sg ++ fmtTenMillionths m.natAbs)
      = some (if sg = [] then ((m.natAbs : Nat) : Rat) / 10000000 else -(((m.natAbs : Nat) : Rat) / 10000000)) := by
    intro sg hsg
    obtain ⟨i, f, e, h1, h2, h3⟩ := fmt_parts m.natAbs
    rw [h2, show sg ++ (i ++ f ++ e) = sg ++ i ++ f ++ e by simp, floatOf_parts (h1 sg hsg)]
    dsimp only
    have hv : (if 0 ≤ expOf e - (f.tail.length : Int) then
          ((Nat.ofDigitChars 10 (i ++ f.tail) 0 : Nat) : Rat) * (10 ^ (expOf e - (f.tail.length : Int)).toNat : Nat)
        else ((Nat.ofDigitChars 10 (i ++ f.tail) 0 : Nat) : Rat) / (10 ^ (-(expOf e - (f.tail.length : Int))).toNat : Nat))
        = ((m.natAbs : Nat) : Rat) / 10000000 := by
      rcases h3 with ⟨rfl, h4, h5⟩ | ⟨rfl, rfl, h4⟩
      · rw [Nat.mul_one] at h4
        have hE : expOf [] = 0 := rfl
        rw [hE]
        by_cases hz : f.tail.length = 0
        · rw [if_pos (by omega), hz]
          rw [hz] at h4
          have := value_eq h4 (by omega)
          rw [← this]
          simp [Rat.div_def]
          grind
        · rw [if_neg (by omega)]
          have : (-(0 - (f.tail.length : Int))).toNat = f.tail.length := by omega
          rw [this]
          exact value_eq h4 h5
      · have hE : expOf ['e', '-', '7'] = -7 := by decide
        rw [hE]
        have : (-(-7 - ((List.tail (α := Char) []).length : Int))).toNat = 7 := by decide
        rw [if_neg (by decide), this, List.tail_nil, List.append_nil, h4]
        rfl
    rw [hv, if_pos]
    have h5 : ((m.natAbs : Nat) : Rat) < ((2 ^ 64 : Nat) : Rat) := by exact_mod_cast hm
    have h6 : ((2 ^ 64 : Nat) : Rat) < ((2 ^ 1024 - 2 ^ 970 : Nat) : Rat) := by decide +kernel
    generalize ((2 ^ 1024 - 2 ^ 970 : Nat) : Rat) = B at *
    generalize ((2 ^ 64 : Nat) : Rat) = C at *
    have h7 : (0 : Rat) ≤ ((m.natAbs : Nat) : Rat) := by exact_mod_cast Nat.zero_le _
    grind
  unfold fmtFloat
  dsimp only
  rw [hnum]
  by_cases hneg : m < 0
  · rw [if_pos hneg]
    have := key ['-'] (.inr rfl)
    rw [List.singleton_append] at this
    rw [this, if_neg (by simp), hq]
    have : (m : Rat) = -((m.natAbs : Nat) : Rat) := by
      have : m = -((m.natAbs : Nat) : Int) := by omega
      rw [this]; simp [Rat.intCast_natCast]
    rw [this]
    congr 1
    grind
  · rw [if_neg hneg]
    have := key [] (.inl rfl)
    rw [List.nil_append] at this
    rw [this, if_pos rfl, hq]
    have : (m : Rat) = ((m.natAbs : Nat) : Rat) := by
      have : m = ((m.natAbs : Nat) : Int) := by omega
      rw [this]; simp [Rat.intCast_natCast]
    rw [this]

end Verif.Lemmas.Persist
