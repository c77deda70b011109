import Verif.Model.Json

/-! Lemmas on the JSON reader and writer. -/

set_option linter.unusedSimpArgs false

namespace Verif.Lemmas.JsonL

open Verif.Model

theorem skipWs_newLine (d : Nat) (s : List Char) : skipWs (newLine d ++ s) = skipWs s := by
  unfold newLine
  rw [List.cons_append, skipWs, if_pos (by decide)]
  induction d with
  | zero => rfl
  | succ d ih => rw [List.replicate_succ, List.cons_append, skipWs, if_pos (by decide), ih]

theorem skipWs_cons {c : Char} {s : List Char} (h : isWs c = false) : skipWs (c :: s) = c :: s := by
  rw [skipWs, if_neg (by simp [h])]

theorem skipWs_idem (s : List Char) : skipWs (skipWs s) = skipWs s := by
  induction s with
  | nil => rfl
  | cons c s ih =>
    by_cases h : isWs c = true
    · rw [skipWs, if_pos h, ih]
    · rw [skipWs, if_neg h, skipWs, if_neg h]

theorem pValue_ws {n : Nat} {s s' : List Char} (h : skipWs s = skipWs s') : pValue n s = pValue n s' := by
  cases n with
  | zero => rw [pValue, pValue]
  | succ n => rw [pValue, pValue, h]

theorem pMembers_ws {n : Nat} {s s' : List Char} (h : skipWs s = skipWs s') : pMembers n s = pMembers n s' := by
  cases n with
  | zero => rw [pMembers, pMembers]
  | succ n => rw [pMembers, pMembers, h]

theorem pElems_ws {n : Nat} {s s' : List Char} (h : skipWs s = skipWs s') : pElems n s = pElems n s' := by
  cases n with
  | zero => rw [pElems, pElems]
  | succ n => rw [pElems, pElems, pValue_ws h]

/-! ### strings -/

theorem pParts_raw {c : Char} {r : List Char} (h1 : c ≠ '"') (h2 : c ≠ '\\') :
    pParts (c :: r) = if c.toNat < 0x20 then none else (pParts r).map fun p => (.ch c :: p.1, p.2) := by
  have : pParts (c :: r)
      = if c.toNat < 0x20 ∨ c = '\\' then none else (pParts r).map fun p => (.ch c :: p.1, p.2) := by
    rw [pParts.eq_def]
    split
    · rename_i h; cases h
    · rename_i h; injection h with h _; exact absurd h h1
    · rename_i h; injection h with h _; exact absurd h h2
    · rename_i h; injection h with h _; exact absurd h h2
    · rename_i h; injection h with h h'; subst h; subst h'; rfl
  rw [this]
  simp [h2]

theorem hexVal_jsonHex {k : Nat} (h : k < 16) : hexVal (jsonHex k) = some k := by
  have : ∀ k : Fin 16, hexVal (jsonHex k.1) = some k.1 := by decide
  exact this ⟨k, h⟩

theorem pParts_uEsc {n : Nat} (h : n < 65536) (r : List Char) :
    pParts (uEsc n ++ r) = (pParts r).map fun p => (.unit n :: p.1, p.2) := by
  have h1 : hex4Val (jsonHex (n / 4096 % 16)) (jsonHex (n / 256 % 16)) (jsonHex (n / 16 % 16)) (jsonHex (n % 16))
      = some n := by
    unfold hex4Val
    rw [hexVal_jsonHex (by omega), hexVal_jsonHex (by omega), hexVal_jsonHex (by omega), hexVal_jsonHex (by omega)]
    simp only [Option.bind_some, Option.some.injEq]
    omega
  unfold uEsc
  simp only [List.cons_append, List.nil_append]
  rw [pParts, h1]
  rfl

/-- What a string part stands for when it is not a surrogate. -/
def partOf (c : Char) : StrPart :=
  if c = '"' ∨ c = '\\' ∨ c = '\n' ∨ c = '\r' ∨ c = '\t' then .ch c
  else if c.toNat < 0x20 ∨ c = '<' ∨ c = '>' ∨ c = '&' ∨ c.toNat = 0x2028 ∨ c.toNat = 0x2029 then .unit c.toNat
  else .ch c

theorem pParts_esc (c : Char) (r : List Char) :
    pParts (escChar c ++ r) = (pParts r).map fun p => (partOf c :: p.1, p.2) := by
  unfold escChar partOf
  by_cases h1 : c = '"'
  · subst h1; simp [pParts, simpleEsc]
  rw [if_neg h1]
  by_cases h2 : c = '\\'
  · subst h2; simp [pParts, simpleEsc]
  rw [if_neg h2]
  by_cases h3 : c = '\n'
  · subst h3; simp [pParts, simpleEsc]
  rw [if_neg h3]
  by_cases h4 : c = '\r'
  · subst h4; simp [pParts, simpleEsc]
  rw [if_neg h4]
  by_cases h5 : c = '\t'
  · subst h5; simp [pParts, simpleEsc]
  rw [if_neg h5, if_neg (show ¬ (c = '"' ∨ c = '\\' ∨ c = '\n' ∨ c = '\r' ∨ c = '\t') by simp [h1, h2, h3, h4, h5])]
  by_cases h6 : c.toNat < 0x20 ∨ c = '<' ∨ c = '>' ∨ c = '&' ∨ c.toNat = 0x2028 ∨ c.toNat = 0x2029
  · rw [if_pos h6, if_pos h6]
    refine pParts_uEsc ?_ r
    rcases h6 with h | h | h | h | h | h
    · omega
    · subst h; decide
    · subst h; decide
    · subst h; decide
    · omega
    · omega
  · rw [if_neg h6, if_neg h6, List.singleton_append, pParts_raw h1 h2, if_neg (fun h => h6 (.inl h))]

theorem pParts_flat (s r : List Char) : pParts (s.flatMap escChar ++ '"' :: r) = some (s.map partOf, r) := by
  induction s with
  | nil => simp [pParts]
  | cons c s ih => rw [List.flatMap_cons, List.append_assoc, pParts_esc, ih]; rfl

theorem join_partOf (s : List Char) : joinParts (s.map partOf) = s := by
  induction s with
  | nil => rfl
  | cons c s ih =>
    rw [List.map_cons]
    generalize s.map partOf = m at ih ⊢
    unfold partOf
    split
    · rw [joinParts, ih]
    · split
      · rename_i h
        have hs : ¬ (0xD800 ≤ c.toNat ∧ c.toNat < 0xDC00) ∧ ¬ (0xDC00 ≤ c.toNat ∧ c.toNat < 0xE000) := by
          rcases h with h | h | h | h | h | h
          · omega
          · subst h; decide
          · subst h; decide
          · subst h; decide
          · omega
          · omega
        rw [joinParts.eq_def]
        simp only [hs.1, hs.2, if_false, ih, Char.ofNat_toNat]
      · rw [joinParts, ih]

theorem pString_quoted (s r : List Char) : pString (s.flatMap escChar ++ ['"'] ++ r) = some (s, r) := by
  unfold pString
  rw [List.append_assoc, List.singleton_append, pParts_flat, Option.map_some, join_partOf]

/-! ### reading what was written -/

/-- What may follow a number. -/
def Stop (r : List Char) : Prop := ∀ c, r.head? = some c → isDig c = false ∧ c ≠ '.' ∧ c ≠ 'e' ∧ c ≠ 'E'

/-- The text of a number that is read back whole. -/
structure NumOk (lit : List Char) : Prop where
  read : ∀ r, Stop r → pNumber (lit ++ r) = some (lit, r)
  first : ∃ c s, lit = c :: s ∧ (isDig c = true ∨ c = '-')

mutual
/-- All numbers in it are numbers. -/
def Json.Ok : Json → Prop
  | .num lit => NumOk lit
  | .arr xs => JList.Ok xs
  | .obj ms => JMems.Ok ms
  | _ => True
def JList.Ok : JList → Prop
  | .nil => True
  | .cons x xs => Json.Ok x ∧ JList.Ok xs
def JMems.Ok : JMems → Prop
  | .nil => True
  | .cons _ v ms => Json.Ok v ∧ JMems.Ok ms
end

mutual
/-- How deep the reader has to go. -/
def Json.need : Json → Nat
  | .arr xs => 1 + JList.need xs
  | .obj ms => 1 + JMems.need ms
  | _ => 1
def JList.need : JList → Nat
  | .nil => 0
  | .cons x xs => 1 + Json.need x + JList.need xs
def JMems.need : JMems → Nat
  | .nil => 0
  | .cons _ v ms => 1 + Json.need v + JMems.need ms
end

theorem stop_newLine (d : Nat) (r : List Char) : Stop (newLine d ++ r) := by
  intro c h
  simp only [newLine, List.cons_append, List.head?_cons, Option.some.injEq] at h
  subst h; decide

theorem stop_nil : Stop [] := by intro c h; cases h

theorem stop_list (d d0 : Nat) (xs : JList) (r : List Char) : Stop (xs.print d ++ (newLine d0 ++ r)) := by
  cases xs with
  | nil => rw [JList.print]; exact stop_newLine d0 r
  | cons x xs => rw [JList.print]; intro c h; simp at h; subst h; decide

theorem stop_mems (d d0 : Nat) (xs : JMems) (r : List Char) : Stop (xs.print d ++ (newLine d0 ++ r)) := by
  cases xs with
  | nil => rw [JMems.print]; exact stop_newLine d0 r
  | cons k x xs => rw [JMems.print]; intro c h; simp at h; subst h; decide

theorem dig_not_ws {c : Char} (h : isDig c = true ∨ c = '-') :
    isWs c = false ∧ c ≠ '{' ∧ c ≠ '[' ∧ c ≠ '"' ∧ c ≠ 'n' ∧ c ≠ 't' ∧ c ≠ 'f' := by
  have aux : ∀ x : Char, isDig x = false → x ≠ '-' → c ≠ x := by
    intro x hx hx' e
    subst e
    rcases h with h | h
    · simp [hx] at h
    · exact hx' h
  refine ⟨?_, aux _ (by decide) (by decide), aux _ (by decide) (by decide), aux _ (by decide) (by decide),
    aux _ (by decide) (by decide), aux _ (by decide) (by decide), aux _ (by decide) (by decide)⟩
  unfold isWs
  simp [aux ' ' (by decide) (by decide), aux '\t' (by decide) (by decide), aux '\n' (by decide) (by decide),
    aux '\r' (by decide) (by decide)]

theorem first_not_ws (d : Nat) (j : Json) (h : Json.Ok j) (r : List Char) :
    ∃ c s, j.print d ++ r = c :: s ∧ isWs c = false ∧ c ≠ ']' := by
  cases j with
  | null => exact ⟨_, _, rfl, by decide, by decide⟩
  | bool b => cases b <;> exact ⟨_, _, rfl, by decide, by decide⟩
  | num lit =>
    obtain ⟨c, s, e, hc⟩ := NumOk.first (show NumOk lit by simpa [Json.Ok] using h)
    subst e
    refine ⟨c, s ++ r, by rw [Json.print, List.cons_append], (dig_not_ws hc).1, ?_⟩
    rintro rfl
    rcases hc with hc | hc <;> revert hc <;> decide
  | str s => exact ⟨_, _, by rw [Json.print, quoted, List.cons_append], by decide, by decide⟩
  | arr xs => cases xs <;> exact ⟨_, _, by rw [Json.print, List.cons_append], by decide, by decide⟩
  | obj xs => cases xs <;> exact ⟨_, _, by rw [Json.print, List.cons_append], by decide, by decide⟩

mutual
theorem read_value : ∀ (j : Json), Json.Ok j → ∀ (d n : Nat) (r : List Char), Json.need j ≤ n → Stop r →
    pValue n (j.print d ++ r) = some (j, r)
  | .null, _, d, n + 1, r, _, _ => by
    rw [pValue, Json.print, List.cons_append, skipWs_cons (by decide)]
    simp [pWord]
  | .bool true, _, d, n + 1, r, _, _ => by
    rw [pValue, Json.print, List.cons_append, skipWs_cons (by decide)]
    simp [pWord]
  | .bool false, _, d, n + 1, r, _, _ => by
    rw [pValue, Json.print, List.cons_append, skipWs_cons (by decide)]
    simp [pWord]
  | .num lit, h, d, n + 1, r, _, hs => by
    have h : NumOk lit := by simpa [Json.Ok] using h
    obtain ⟨c, s, e, hc⟩ := h.first
    have hr := h.read r hs
    subst e
    obtain ⟨h0, h1, h2, h3, h4, h5, h6⟩ := dig_not_ws hc
    rw [pValue, Json.print, List.cons_append, skipWs_cons h0]
    rw [List.cons_append] at hr
    simp only [h1, h2, h3, h4, h5, h6, if_false, hr, Option.map_some]
  | .str s, _, d, n + 1, r, _, _ => by
    rw [pValue, Json.print, quoted, List.cons_append, skipWs_cons (by decide)]
    simp only [reduceIte, Char.reduceEq, pString_quoted, Option.map_some]
  | .arr .nil, _, d, n + 1, r, _, _ => by
    rw [pValue, Json.print, List.cons_append, skipWs_cons (by decide)]
    simp [skipWs_cons (show isWs ']' = false by decide)]
  | .arr (.cons x xs), h, d, n + 1, r, hn, _ => by
    obtain ⟨hx, hxs⟩ : Json.Ok x ∧ JList.Ok xs := by simpa [Json.Ok, JList.Ok] using h
    have hn' : Json.need x + JList.need xs + 1 ≤ n := by simp only [Json.need, JList.need] at hn; omega
    obtain ⟨m, rfl⟩ : ∃ m, n = m + 1 := ⟨n - 1, by omega⟩
    have hv := read_value x hx (d + 1) m (xs.print (d + 1) ++ (newLine d ++ ']' :: r)) (by omega)
      (stop_list _ _ _ _)
    have hl := read_list xs hxs (d + 1) d m x _ r (by omega) hv
    obtain ⟨c, s, e, hc, hc'⟩ := first_not_ws (d + 1) x hx (xs.print (d + 1) ++ (newLine d ++ ']' :: r))
    rw [pValue, Json.print, List.cons_append, skipWs_cons (by decide)]
    simp only [Char.reduceEq, reduceIte, List.append_assoc, List.singleton_append]
    rw [skipWs_newLine, e, skipWs_cons hc, List.head?_cons, if_neg (by simpa using hc'), ← e,
      pElems_ws (skipWs_newLine _ _), hl]
    rfl
  | .obj .nil, _, d, n + 1, r, _, _ => by
    rw [pValue, Json.print, List.cons_append, skipWs_cons (by decide)]
    simp [skipWs_cons (show isWs '}' = false by decide)]
  | .obj (.cons k x xs), h, d, n + 1, r, hn, _ => by
    obtain ⟨hx, hxs⟩ : Json.Ok x ∧ JMems.Ok xs := by simpa [Json.Ok, JMems.Ok] using h
    have hn' : Json.need x + JMems.need xs + 1 ≤ n := by simp only [Json.need, JMems.need] at hn; omega
    obtain ⟨m, rfl⟩ : ∃ m, n = m + 1 := ⟨n - 1, by omega⟩
    have hv := read_value x hx (d + 1) m (xs.print (d + 1) ++ (newLine d ++ '}' :: r)) (by omega)
      (stop_mems _ _ _ _)
    have hl := read_mems xs hxs (d + 1) d m k x _ r (by omega) hv
    rw [pValue, Json.print, List.cons_append, skipWs_cons (by decide)]
    simp only [Char.reduceEq, reduceIte, List.append_assoc, List.singleton_append]
    rw [skipWs_newLine, quoted, List.cons_append, skipWs_cons (by decide), List.head?_cons,
      if_neg (by decide), pMembers_ws (skipWs_newLine _ _)]
    rw [quoted, List.cons_append] at hl
    simp only [List.cons_append, List.nil_append]
    rw [hl]
    rfl
  | .null, _, _, 0, _, h, _ | .bool _, _, _, 0, _, h, _ | .num _, _, _, 0, _, h, _ | .str _, _, _, 0, _, h, _
  | .arr _, _, _, 0, _, h, _ | .obj _, _, _, 0, _, h, _ => by simp only [Json.need] at h; omega

theorem read_list : ∀ (xs : JList), JList.Ok xs → ∀ (d d0 n : Nat) (v : Json) (s r : List Char),
    JList.need xs ≤ n → pValue n s = some (v, xs.print d ++ (newLine d0 ++ ']' :: r)) →
    pElems (n + 1) s = some (.cons v xs, r)
  | .nil, _, d, d0, n, v, s, r, _, hv => by
    rw [pElems, hv]
    simp [JList.print, skipWs_newLine, skipWs_cons (show isWs ']' = false by decide)]
  | .cons x xs, h, d, d0, n, v, s, r, hn, hv => by
    obtain ⟨hx, hxs⟩ : Json.Ok x ∧ JList.Ok xs := by simpa [JList.Ok] using h
    have hn' : Json.need x + JList.need xs + 1 ≤ n := by simp only [JList.need] at hn; omega
    obtain ⟨m, rfl⟩ : ∃ m, n = m + 1 := ⟨n - 1, by omega⟩
    have hv' := read_value x hx d m (xs.print d ++ (newLine d0 ++ ']' :: r)) (by omega) (stop_list _ _ _ _)
    have hl := read_list xs hxs d d0 m x _ r (by omega) hv'
    rw [pElems, hv]
    simp only [JList.print, List.cons_append, Option.bind_some]
    rw [skipWs_cons (by decide), List.head?_cons, if_pos rfl, List.tail_cons]
    simp only [List.append_assoc]
    rw [pElems_ws (skipWs_newLine _ _), hl]
    rfl

theorem read_mems : ∀ (ms : JMems), JMems.Ok ms → ∀ (d d0 n : Nat) (k : List Char) (v : Json) (s r : List Char),
    JMems.need ms ≤ n → pValue n s = some (v, ms.print d ++ (newLine d0 ++ '}' :: r)) →
    pMembers (n + 1) (quoted k ++ (':' :: ' ' :: s)) = some (.cons k v ms, r)
  | .nil, _, d, d0, n, k, v, s, r, _, hv => by
    have hv : pValue n (' ' :: s) = _ := (pValue_ws (by rw [skipWs, if_pos (by decide)])).trans hv
    rw [pMembers, quoted, List.cons_append, skipWs_cons (by decide)]
    simp only [Char.reduceEq, reduceIte, pString_quoted, Option.bind_some]
    rw [skipWs_cons (by decide), List.head?_cons, if_pos rfl, List.tail_cons, hv]
    simp [JMems.print, skipWs_newLine, skipWs_cons (show isWs '}' = false by decide)]
  | .cons k' x xs, h, d, d0, n, k, v, s, r, hn, hv => by
    obtain ⟨hx, hxs⟩ : Json.Ok x ∧ JMems.Ok xs := by simpa [JMems.Ok] using h
    have hn' : Json.need x + JMems.need xs + 1 ≤ n := by simp only [JMems.need] at hn; omega
    obtain ⟨m, rfl⟩ : ∃ m, n = m + 1 := ⟨n - 1, by omega⟩
    have hv' := read_value x hx d m (xs.print d ++ (newLine d0 ++ '}' :: r)) (by omega) (stop_mems _ _ _ _)
    have hl := read_mems xs hxs d d0 m k' x _ r (by omega) hv'
    have hv : pValue (m + 1) (' ' :: s) = _ := (pValue_ws (by rw [skipWs, if_pos (by decide)])).trans hv
    rw [pMembers, quoted, List.cons_append, skipWs_cons (by decide)]
    simp only [Char.reduceEq, reduceIte, pString_quoted, Option.bind_some]
    rw [skipWs_cons (by decide), List.head?_cons, if_pos rfl, List.tail_cons, hv]
    simp only [JMems.print, List.cons_append, Option.bind_some]
    rw [skipWs_cons (by decide), List.head?_cons, if_pos rfl, List.tail_cons]
    simp only [List.append_assoc, List.nil_append, List.cons_append]
    rw [pMembers_ws (skipWs_newLine _ _), hl]
    rfl
end

/-! ### the bound suffices -/

theorem quoted_length (k : List Char) : 2 ≤ (quoted k).length := by simp [quoted]

mutual
theorem need_value : ∀ (j : Json), Json.Ok j → ∀ d, Json.need j ≤ 2 * (j.print d).length
  | .null, _, d => by simp [Json.need, Json.print]
  | .bool true, _, d => by simp [Json.need, Json.print]
  | .bool false, _, d => by simp [Json.need, Json.print]
  | .num lit, h, d => by
    obtain ⟨c, s, e, _⟩ := NumOk.first (show NumOk lit by simpa [Json.Ok] using h)
    simp [Json.need, Json.print, e]; omega
  | .str s, _, d => by have := quoted_length s; simp only [Json.need, Json.print]; omega
  | .arr .nil, _, d => by simp [Json.need, Json.print, JList.need]
  | .obj .nil, _, d => by simp [Json.need, Json.print, JMems.need]
  | .arr (.cons x xs), h, d => by
    obtain ⟨hx, hxs⟩ : Json.Ok x ∧ JList.Ok xs := by simpa [Json.Ok, JList.Ok] using h
    have h1 := need_value x hx (d + 1)
    have h2 := need_list xs hxs (d + 1)
    simp only [Json.need, JList.need, Json.print, List.length_cons, List.length_append, List.length_nil]
    omega
  | .obj (.cons k x xs), h, d => by
    obtain ⟨hx, hxs⟩ : Json.Ok x ∧ JMems.Ok xs := by simpa [Json.Ok, JMems.Ok] using h
    have h1 := need_value x hx (d + 1)
    have h2 := need_mems xs hxs (d + 1)
    simp only [Json.need, JMems.need, Json.print, List.length_cons, List.length_append, List.length_nil]
    omega
theorem need_list : ∀ (xs : JList), JList.Ok xs → ∀ d, JList.need xs ≤ 2 * (xs.print d).length
  | .nil, _, d => by simp [JList.need]
  | .cons x xs, h, d => by
    obtain ⟨hx, hxs⟩ : Json.Ok x ∧ JList.Ok xs := by simpa [JList.Ok] using h
    have h1 := need_value x hx d
    have h2 := need_list xs hxs d
    simp only [JList.need, JList.print, List.length_cons, List.length_append, List.length_nil]
    omega
theorem need_mems : ∀ (ms : JMems), JMems.Ok ms → ∀ d, JMems.need ms ≤ 2 * (ms.print d).length
  | .nil, _, d => by simp [JMems.need]
  | .cons k x xs, h, d => by
    obtain ⟨hx, hxs⟩ : Json.Ok x ∧ JMems.Ok xs := by simpa [JMems.Ok] using h
    have h1 := need_value x hx d
    have h2 := need_mems xs hxs d
    simp only [JMems.need, JMems.print, List.length_cons, List.length_append, List.length_nil]
    omega
end

/-- What is written is read back. -/
theorem parse_print (j : Json) (h : Json.Ok j) : parseJson (j.print 0) = some j := by
  unfold parseJson
  have h1 := need_value j h 0
  have := read_value j h 0 (2 * (j.print 0).length + 2) [] (by omega) stop_nil
  rw [List.append_nil] at this
  rw [this]
  rfl

/-! ### more text -/

theorem skipWs_append {s : List Char} (q : List Char) (h : skipWs s ≠ []) : skipWs (s ++ q) = skipWs s ++ q := by
  induction s with
  | nil => exact absurd rfl h
  | cons c s ih =>
    by_cases hc : isWs c = true
    · rw [skipWs, if_pos hc] at h
      rw [List.cons_append, skipWs, if_pos hc, skipWs, if_pos hc, ih h]
    · rw [List.cons_append, skipWs, if_neg hc, skipWs, if_neg hc, List.cons_append]

theorem pParts_append (q : List Char) : ∀ (s : List Char) (p : List StrPart) (r : List Char),
    pParts s = some (p, r) → pParts (s ++ q) = some (p, r ++ q) := by
  intro s
  induction s using pParts.induct with
  | case1 => intro p r h; simp [pParts] at h
  | case2 t => intro p r h; simp [pParts] at h; simp [pParts, h]
  | case3 a b c d t ih =>
    intro p r h
    rw [pParts] at h
    simp only [List.cons_append]
    rw [pParts]
    cases hh : hex4Val a b c d with
    | none => simp [hh] at h
    | some n =>
      rw [hh] at h
      simp only [Option.bind_some, Option.map_eq_some_iff, Prod.mk.injEq] at h ⊢
      obtain ⟨⟨p', r'⟩, e, h1, h2⟩ := h
      exact ⟨(p', r' ++ q), ih p' r' e, h1, by simp [← h2]⟩
  | case4 c t hn ih =>
    intro p r h
    have hu : c ≠ 'u' := by
      rintro rfl
      rw [pParts.eq_4] at h
      · simp [simpleEsc] at h
      · exact hn
    rw [pParts.eq_4 _ _ (fun _ _ _ _ _ e _ => hu e)] at h
    simp only [List.cons_append]
    rw [pParts.eq_4 _ _ (fun _ _ _ _ _ e _ => hu e)]
    cases hh : simpleEsc c with
    | none => simp [hh] at h
    | some n =>
      rw [hh] at h
      simp only [Option.bind_some, Option.map_eq_some_iff, Prod.mk.injEq] at h ⊢
      obtain ⟨⟨p', r'⟩, e, h1, h2⟩ := h
      exact ⟨(p', r' ++ q), ih p' r' e, h1, by simp [← h2]⟩
  | case5 c t h1 h2 h3 hbad =>
    intro p r h
    rw [pParts.eq_5 _ _ h1 h2 h3, if_pos hbad] at h
    cases h
  | case6 c t h1 h2 h3 hok ih =>
    intro p r h
    have hc1 : c ≠ '"' := h1
    have hc2 : c ≠ '\\' := fun e => hok (.inr e)
    rw [pParts_raw hc1 hc2] at h
    rw [List.cons_append, pParts_raw hc1 hc2]
    rw [if_neg (fun e => hok (.inl e))] at h ⊢
    simp only [Option.map_eq_some_iff, Prod.mk.injEq] at h ⊢
    obtain ⟨⟨p', r'⟩, e, h1, h2⟩ := h
    exact ⟨(p', r' ++ q), ih p' r' e, h1, by simp [← h2]⟩

theorem pString_append (q : List Char) {s p r : List Char} (h : pString s = some (p, r)) :
    pString (s ++ q) = some (p, r ++ q) := by
  unfold pString at h ⊢
  simp only [Option.map_eq_some_iff, Prod.mk.injEq] at h ⊢
  obtain ⟨⟨p', r'⟩, e, h1, h2⟩ := h
  exact ⟨(p', r' ++ q), pParts_append q _ _ _ e, h1, by simp [← h2]⟩

theorem digits_append (q : List Char) {s : List Char} (h : (digits s).2 ≠ []) :
    digits (s ++ q) = ((digits s).1, (digits s).2 ++ q) := by
  induction s with
  | nil => exact absurd rfl h
  | cons c s ih =>
    by_cases hc : isDig c = true
    · rw [digits, if_pos hc] at h
      rw [List.cons_append, digits, if_pos hc, digits, if_pos hc, ih h]
    · rw [List.cons_append, digits, if_neg hc, digits, if_neg hc, List.cons_append]

theorem pExp_append (q : List Char) {s e r : List Char} (h : pExp s = some (e, r)) (hr : r ≠ []) :
    pExp (s ++ q) = some (e, r ++ q) := by
  cases s with
  | nil => simp [pExp] at h; exact absurd h.2.symm (by simpa using hr)
  | cons c s =>
    rw [pExp] at h
    rw [List.cons_append, pExp]
    by_cases hc : c = 'e' ∨ c = 'E'
    · rw [if_pos hc] at h ⊢
      by_cases hd : (digits (expSign s).2).1 = []
      · rw [if_pos hd] at h; cases h
      · rw [if_neg hd] at h
        have hne : s ≠ [] := by rintro rfl; exact hd rfl
        have hs : expSign (s ++ q) = ((expSign s).1, (expSign s).2 ++ q) := by
          cases s with
          | nil => exact absurd rfl hne
          | cons x s =>
            by_cases h1 : x = '+'
            · subst h1; rfl
            by_cases h2 : x = '-'
            · subst h2; rfl
            rw [List.cons_append, expSign.eq_3 _ (fun _ e => h1 (by injection e)) (fun _ e => h2 (by injection e)),
              expSign.eq_3 _ (fun _ e => h1 (by injection e)) (fun _ e => h2 (by injection e))]
            rfl
        simp only [Option.some.injEq, Prod.mk.injEq] at h
        obtain ⟨h1, h2⟩ := h
        rw [hs]
        dsimp only
        rw [digits_append q (by rw [h2]; exact hr)]
        dsimp only
        rw [if_neg hd, h1, h2]
    · rw [if_neg hc] at h ⊢
      simp only [Option.some.injEq, Prod.mk.injEq] at h ⊢
      exact ⟨h.1, by rw [← h.2]; rfl⟩

theorem pFrac_append (q : List Char) {s e r : List Char} (h : pFrac s = some (e, r)) (hr : r ≠ []) :
    pFrac (s ++ q) = some (e, r ++ q) := by
  cases s with
  | nil => simp [pFrac] at h; exact absurd h.2.symm (by simpa using hr)
  | cons c s =>
    by_cases hc : c = '.'
    · subst hc
      rw [pFrac] at h
      rw [List.cons_append, pFrac]
      by_cases hd : (digits s).1 = []
      · rw [if_pos hd] at h; cases h
      · rw [if_neg hd] at h
        simp only [Option.some.injEq, Prod.mk.injEq] at h
        rw [digits_append q (by rw [h.2]; exact hr)]
        dsimp only
        rw [if_neg hd, h.1, h.2]
    · rw [pFrac.eq_2 _ (fun _ e => hc (by injection e))] at h
      rw [List.cons_append, pFrac.eq_2 _ (fun _ e => hc (by injection e))]
      simp only [Option.some.injEq, Prod.mk.injEq] at h ⊢
      exact ⟨h.1, by rw [← h.2]; rfl⟩

theorem pNumber_append (q : List Char) {s e r : List Char} (h : pNumber s = some (e, r)) (hr : r ≠ []) :
    pNumber (s ++ q) = some (e, r ++ q) := by
  unfold pNumber at h ⊢
  dsimp only at h ⊢
  by_cases hb : (digits (numSign s).2).1 = [] ∨
      ((digits (numSign s).2).1.head? = some '0' ∧ (digits (numSign s).2).1 ≠ ['0'])
  · rw [if_pos hb] at h; cases h
  rw [if_neg hb] at h
  cases hf : pFrac (digits (numSign s).2).2 with
  | none => simp [hf] at h
  | some f =>
    rw [hf, Option.bind_some] at h
    simp only [Option.map_eq_some_iff, Prod.mk.injEq] at h
    obtain ⟨⟨x, r'⟩, he, h1, rfl⟩ := h
    have hf2 : f.2 ≠ [] := by
      intro e
      rw [e] at he
      simp [pExp] at he
      exact hr he.2
    have hd2 : (digits (numSign s).2).2 ≠ [] := by
      intro e
      rw [e] at hf
      simp [pFrac] at hf
      rw [← hf] at hf2
      exact hf2 rfl
    have hne : s ≠ [] := by rintro rfl; exact hd2 rfl
    have hs : numSign (s ++ q) = ((numSign s).1, (numSign s).2 ++ q) := by
      cases s with
      | nil => exact absurd rfl hne
      | cons x s =>
        by_cases h2 : x = '-'
        · subst h2; rfl
        rw [List.cons_append, numSign.eq_2 _ (fun _ e => h2 (by injection e)),
          numSign.eq_2 _ (fun _ e => h2 (by injection e))]
        rfl
    rw [hs]
    dsimp only
    rw [digits_append q hd2]
    dsimp only
    rw [if_neg hb, pFrac_append q (show pFrac _ = some (f.1, f.2) from hf) hf2, Option.bind_some]
    dsimp only
    rw [pExp_append q he hr, Option.map_some, h1]

theorem pWord_append (q : List Char) {w s r : List Char} (h : pWord w s = some r) : pWord w (s ++ q) = some (r ++ q) := by
  unfold pWord at h ⊢
  by_cases hp : w.isPrefixOf s = true
  · rw [if_pos hp] at h
    have hp' : w <+: s := List.isPrefixOf_iff_prefix.1 hp
    have hq : w.isPrefixOf (s ++ q) = true := List.isPrefixOf_iff_prefix.2 (hp'.trans (List.prefix_append s q))
    rw [if_pos hq, List.drop_append_of_le_length hp'.length_le]
    simpa using h
  · rw [if_neg hp] at h; cases h

/-- The cases of `pValue` by the first character. -/
theorem pValue_cons {n : Nat} {s : List Char} {c : Char} {t : List Char} (h : skipWs s = c :: t) :
    pValue (n + 1) s =
      if c = '{' then
        if (skipWs t).head? = some '}' then some (.obj .nil, (skipWs t).tail)
        else (pMembers n t).map fun p => (.obj p.1, p.2)
      else if c = '[' then
        if (skipWs t).head? = some ']' then some (.arr .nil, (skipWs t).tail)
        else (pElems n t).map fun p => (.arr p.1, p.2)
      else if c = '"' then (pString t).map fun p => (.str p.1, p.2)
      else if c = 'n' then (pWord ['u', 'l', 'l'] t).map fun r => (.null, r)
      else if c = 't' then (pWord ['r', 'u', 'e'] t).map fun r => (.bool true, r)
      else if c = 'f' then (pWord ['a', 'l', 's', 'e'] t).map fun r => (.bool false, r)
      else (pNumber (c :: t)).map fun p => (.num p.1, p.2) := by
  rw [pValue, h]

/-- Text after the value does not matter, unless the value is a number at the very end. -/
def Closed (v : Json) (r : List Char) : Prop := r ≠ [] ∨ ∀ lit, v ≠ .num lit

theorem head_append {s q : List Char} {c : Char} (h : (skipWs s).head? = some c) :
    (skipWs (s ++ q)).head? = some c ∧ (skipWs (s ++ q)).tail = (skipWs s).tail ++ q ∧ s ≠ [] := by
  have hne : skipWs s ≠ [] := by intro e; rw [e] at h; cases h
  rw [skipWs_append q hne]
  obtain ⟨x, t, e⟩ := List.exists_cons_of_ne_nil hne
  rw [e] at h ⊢
  exact ⟨by simpa using h, rfl, by rintro rfl; exact hne rfl⟩

theorem append_all (q : List Char) : ∀ n,
    (∀ s v r m, pValue n s = some (v, r) → Closed v r → n ≤ m → pValue m (s ++ q) = some (v, r ++ q)) ∧
    (∀ s v r m, pMembers n s = some (v, r) → n ≤ m → pMembers m (s ++ q) = some (v, r ++ q)) ∧
    (∀ s v r m, pElems n s = some (v, r) → n ≤ m → pElems m (s ++ q) = some (v, r ++ q)) := by
  intro n
  induction n with
  | zero => exact ⟨fun s v r m h => by simp [pValue] at h, fun s v r m h => by simp [pMembers] at h,
      fun s v r m h => by simp [pElems] at h⟩
  | succ n ih =>
    obtain ⟨ihV, ihM, ihE⟩ := ih
    refine ⟨?_, ?_, ?_⟩
    · intro s v r m h hcl hm
      obtain ⟨m, rfl⟩ : ∃ k, m = k + 1 := ⟨m - 1, by omega⟩
      have hm : n ≤ m := by omega
      cases hs : skipWs s with
      | nil => rw [pValue, hs] at h; cases h
      | cons c t =>
        have hs' : skipWs (s ++ q) = c :: (t ++ q) := by rw [skipWs_append q (by rw [hs]; simp), hs]; rfl
        rw [pValue_cons hs] at h
        rw [pValue_cons hs']
        by_cases h1 : c = '{'
        · rw [if_pos h1] at h ⊢
          by_cases h2 : (skipWs t).head? = some '}'
          · rw [if_pos h2] at h
            obtain ⟨a, b, _⟩ := head_append (q := q) h2
            rw [if_pos a, b]
            simp only [Option.some.injEq, Prod.mk.injEq] at h ⊢
            exact ⟨h.1, by rw [h.2]⟩
          · rw [if_neg h2] at h
            simp only [Option.map_eq_some_iff, Prod.mk.injEq] at h
            obtain ⟨⟨p, r'⟩, e, e1, rfl⟩ := h
            have hne : skipWs t ≠ [] := by
              intro e0
              cases n with
              | zero => simp [pMembers] at e
              | succ n => rw [pMembers, e0] at e; cases e
            have h2' : (skipWs (t ++ q)).head? ≠ some '}' := by
              rw [skipWs_append q hne]
              obtain ⟨x, y, e0⟩ := List.exists_cons_of_ne_nil hne
              rw [e0] at h2 ⊢
              simpa using h2
            rw [if_neg h2', ihM _ _ _ m e hm, Option.map_some, e1]
        rw [if_neg h1] at h ⊢
        by_cases h1 : c = '['
        · rw [if_pos h1] at h ⊢
          by_cases h2 : (skipWs t).head? = some ']'
          · rw [if_pos h2] at h
            obtain ⟨a, b, _⟩ := head_append (q := q) h2
            rw [if_pos a, b]
            simp only [Option.some.injEq, Prod.mk.injEq] at h ⊢
            exact ⟨h.1, by rw [h.2]⟩
          · rw [if_neg h2] at h
            simp only [Option.map_eq_some_iff, Prod.mk.injEq] at h
            obtain ⟨⟨p, r'⟩, e, e1, rfl⟩ := h
            have hne : skipWs t ≠ [] := by
              intro e0
              match n, e with
              | 0, e => simp [pElems] at e
              | 1, e => simp [pElems, pValue] at e
              | n + 2, e => rw [pElems, pValue, e0] at e; simp at e
            have h2' : (skipWs (t ++ q)).head? ≠ some ']' := by
              rw [skipWs_append q hne]
              obtain ⟨x, y, e0⟩ := List.exists_cons_of_ne_nil hne
              rw [e0] at h2 ⊢
              simpa using h2
            rw [if_neg h2', ihE _ _ _ m e hm, Option.map_some, e1]
        rw [if_neg h1] at h ⊢
        by_cases h1 : c = '"'
        · rw [if_pos h1] at h ⊢
          simp only [Option.map_eq_some_iff, Prod.mk.injEq] at h
          obtain ⟨⟨p, r'⟩, e, e1, rfl⟩ := h
          rw [pString_append q e, Option.map_some, e1]
        rw [if_neg h1] at h ⊢
        by_cases h1 : c = 'n'
        · rw [if_pos h1] at h ⊢
          simp only [Option.map_eq_some_iff, Prod.mk.injEq] at h
          obtain ⟨r', e, e1, rfl⟩ := h
          rw [pWord_append q e, Option.map_some, e1]
        rw [if_neg h1] at h ⊢
        by_cases h1 : c = 't'
        · rw [if_pos h1] at h ⊢
          simp only [Option.map_eq_some_iff, Prod.mk.injEq] at h
          obtain ⟨r', e, e1, rfl⟩ := h
          rw [pWord_append q e, Option.map_some, e1]
        rw [if_neg h1] at h ⊢
        by_cases h1 : c = 'f'
        · rw [if_pos h1] at h ⊢
          simp only [Option.map_eq_some_iff, Prod.mk.injEq] at h
          obtain ⟨r', e, e1, rfl⟩ := h
          rw [pWord_append q e, Option.map_some, e1]
        rw [if_neg h1] at h ⊢
        simp only [Option.map_eq_some_iff, Prod.mk.injEq] at h
        obtain ⟨⟨p, r'⟩, e, e1, rfl⟩ := h
        have hr : r' ≠ [] := by
          rcases hcl with hr | hr
          · exact hr
          · exact absurd e1.symm (hr p)
        have := pNumber_append q e hr
        rw [List.cons_append] at this
        rw [this, Option.map_some, e1]
    · intro s v r m h hm
      obtain ⟨m, rfl⟩ : ∃ k, m = k + 1 := ⟨m - 1, by omega⟩
      have hm : n ≤ m := by omega
      cases hs : skipWs s with
      | nil => rw [pMembers, hs] at h; cases h
      | cons c t =>
        have hs' : skipWs (s ++ q) = c :: (t ++ q) := by rw [skipWs_append q (by rw [hs]; simp), hs]; rfl
        rw [pMembers, hs] at h
        rw [pMembers, hs']
        dsimp only at h ⊢
        by_cases h1 : c = '"'
        · rw [if_pos h1] at h ⊢
          cases hk : pString t with
          | none => simp [hk] at h
          | some k =>
            rw [hk, Option.bind_some] at h
            rw [pString_append q (show pString t = some (k.1, k.2) from hk), Option.bind_some]
            dsimp only
            by_cases h2 : (skipWs k.2).head? = some ':'
            · rw [if_pos h2] at h
              obtain ⟨a, b, _⟩ := head_append (q := q) h2
              rw [if_pos a, b]
              cases hv : pValue n (skipWs k.2).tail with
              | none => simp [hv] at h
              | some w =>
                rw [hv, Option.bind_some] at h
                by_cases h3 : (skipWs w.2).head? = some ','
                · rw [if_pos h3] at h
                  obtain ⟨a3, b3, c3⟩ := head_append (q := q) h3
                  rw [ihV _ w.1 w.2 m hv (.inl c3) hm, Option.bind_some]
                  dsimp only
                  rw [if_pos a3, b3]
                  simp only [Option.map_eq_some_iff, Prod.mk.injEq] at h
                  obtain ⟨⟨p, r'⟩, e, e1, rfl⟩ := h
                  rw [ihM _ _ _ m e hm, Option.map_some, e1]
                · rw [if_neg h3] at h
                  by_cases h4 : (skipWs w.2).head? = some '}'
                  · rw [if_pos h4] at h
                    obtain ⟨a4, b4, c4⟩ := head_append (q := q) h4
                    rw [ihV _ w.1 w.2 m hv (.inl c4) hm, Option.bind_some]
                    dsimp only
                    rw [if_neg (by rw [a4]; decide), if_pos a4, b4]
                    simp only [Option.some.injEq, Prod.mk.injEq] at h ⊢
                    exact ⟨h.1, by rw [h.2]⟩
                  · rw [if_neg h4] at h; cases h
            · rw [if_neg h2] at h; cases h
        · rw [if_neg h1] at h; cases h
    · intro s v r m h hm
      obtain ⟨m, rfl⟩ : ∃ k, m = k + 1 := ⟨m - 1, by omega⟩
      have hm : n ≤ m := by omega
      rw [pElems] at h ⊢
      cases hv : pValue n s with
      | none => simp [hv] at h
      | some w =>
        rw [hv, Option.bind_some] at h
        by_cases h3 : (skipWs w.2).head? = some ','
        · rw [if_pos h3] at h
          obtain ⟨a3, b3, c3⟩ := head_append (q := q) h3
          rw [ihV _ w.1 w.2 m hv (.inl c3) hm, Option.bind_some]
          dsimp only
          rw [if_pos a3, b3]
          simp only [Option.map_eq_some_iff, Prod.mk.injEq] at h
          obtain ⟨⟨p, r'⟩, e, e1, rfl⟩ := h
          rw [ihE _ _ _ m e hm, Option.map_some, e1]
        · rw [if_neg h3] at h
          by_cases h4 : (skipWs w.2).head? = some ']'
          · rw [if_pos h4] at h
            obtain ⟨a4, b4, c4⟩ := head_append (q := q) h4
            rw [ihV _ w.1 w.2 m hv (.inl c4) hm, Option.bind_some]
            dsimp only
            rw [if_neg (by rw [a4]; decide), if_pos a4, b4]
            simp only [Option.some.injEq, Prod.mk.injEq] at h ⊢
            exact ⟨h.1, by rw [h.2]⟩
          · rw [if_neg h4] at h; cases h

/-- No strict prefix of the text of an object or array is JSON. -/
theorem parse_prefix {j : Json} (h : Json.Ok j) (hj : ∃ c t, j.print 0 = c :: t ∧ (c = '{' ∨ c = '['))
    {p q : List Char} (e : p ++ q = j.print 0) (hq : q ≠ []) : parseJson p = none := by
  unfold parseJson
  cases hv : pValue (2 * p.length + 2) p with
  | none => rfl
  | some w =>
    exfalso
    have hcl : Closed w.1 w.2 := by
      right
      intro lit hl
      obtain ⟨c, t, ec, hc⟩ := hj
      cases p with
      | nil => simp [pValue, skipWs] at hv
      | cons x p =>
        rw [ec, List.cons_append] at e
        injection e with e1 _
        subst e1
        have hws : isWs x = false := by rcases hc with rfl | rfl <;> decide
        rw [pValue_cons (skipWs_cons hws)] at hv
        rcases hc with rfl | rfl
        · simp only [reduceIte] at hv
          split at hv
          · injection hv with hv; rw [← hv] at hl; cases hl
          · simp only [Option.map_eq_some_iff] at hv
            obtain ⟨a, _, ha⟩ := hv
            rw [← ha] at hl; cases hl
        · simp only [reduceIte, Char.reduceEq] at hv
          split at hv
          · injection hv with hv; rw [← hv] at hl; cases hl
          · simp only [Option.map_eq_some_iff] at hv
            obtain ⟨a, _, ha⟩ := hv
            rw [← ha] at hl; cases hl
    have hl : p.length ≤ (j.print 0).length := by rw [← e]; simp
    have h1 := (append_all q _).1 p w.1 w.2 (2 * (j.print 0).length + 2) hv hcl (by omega)
    have h2 := read_value j h 0 (2 * (j.print 0).length + 2) [] (by have := need_value j h 0; omega) stop_nil
    rw [e] at h1
    rw [List.append_nil, h1] at h2
    simp only [Option.some.injEq, Prod.mk.injEq, List.append_eq_nil_iff] at h2
    exact hq h2.2.2

end Verif.Lemmas.JsonL
