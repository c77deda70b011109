import Verif.Model.Json

/-
The bound in the JSON parser never matters: every larger bound gives the same result.
-/

namespace Verif.Lemmas

open Verif.Model

theorem skipWs_len (s : List Char) : (skipWs s).length ≤ s.length := by
  induction s with
  | nil => simp [skipWs]
  | cons c s ih =>
    simp only [skipWs]
    split
    · simp; omega
    · simp

theorem pParts_len {s : List Char} {p : List StrPart × List Char} (h : pParts s = some p) : p.2.length < s.length := by
  induction s using pParts.induct generalizing p with
  | case1 => simp [pParts] at h
  | case2 r => simp [pParts] at h; subst h; simp
  | case3 a b c d r ih =>
    simp only [pParts, Option.bind_eq_some_iff, Option.map_eq_some_iff] at h
    obtain ⟨n, -, q, hq, rfl⟩ := h
    have := ih hq
    simp; omega
  | case4 c r hne ih =>
    rw [pParts] at h
    · simp only [Option.bind_eq_some_iff, Option.map_eq_some_iff] at h
      obtain ⟨n, -, q, hq, rfl⟩ := h
      have := ih hq
      simp; omega
    · exact hne
  | case5 c r h1 h2 h3 hc =>
    rw [pParts] at h
    · simp [hc] at h
    all_goals assumption
  | case6 c r h1 h2 h3 hc ih =>
    rw [pParts] at h
    · simp only [hc, if_false, Option.map_eq_some_iff] at h
      obtain ⟨q, hq, rfl⟩ := h
      have := ih hq
      simp; omega
    all_goals assumption

theorem pString_len {s : List Char} {p : List Char × List Char} (h : pString s = some p) : p.2.length < s.length := by
  simp only [pString, Option.map_eq_some_iff] at h
  obtain ⟨q, hq, rfl⟩ := h
  exact pParts_len hq

theorem digits_len (s : List Char) : (digits s).1.length + (digits s).2.length = s.length := by
  induction s with
  | nil => rfl
  | cons c s ih => simp only [digits]; split <;> simp <;> omega

theorem pFrac_len {s : List Char} {p : List Char × List Char} (h : pFrac s = some p) : p.2.length ≤ s.length := by
  unfold pFrac at h
  split at h
  · rename_i t
    split at h <;> cases h
    have := digits_len t
    simp; omega
  · cases h; simp

theorem expSign_len (s : List Char) : (expSign s).2.length ≤ s.length := by
  unfold expSign; split <;> simp

theorem pExp_len {s : List Char} {p : List Char × List Char} (h : pExp s = some p) : p.2.length ≤ s.length := by
  unfold pExp at h
  split at h
  · rename_i c t
    split at h
    · split at h <;> cases h
      have := digits_len (expSign t).2
      have := expSign_len t
      simp; omega
    · cases h; simp
  · cases h; simp

theorem numSign_len (s : List Char) : (numSign s).2.length ≤ s.length := by
  unfold numSign; split <;> simp

theorem pNumber_len {s : List Char} {p : List Char × List Char} (h : pNumber s = some p) : p.2.length < s.length := by
  simp only [pNumber] at h
  split at h
  · cases h
  · rename_i hn
    simp only [Option.bind_eq_some_iff, Option.map_eq_some_iff] at h
    obtain ⟨f, hf, e, he, rfl⟩ := h
    have h1 := pFrac_len hf
    have h2 := pExp_len he
    have h3 := digits_len (numSign s).2
    have h4 := numSign_len s
    have h5 : 0 < (digits (numSign s).2).1.length := by
      rw [List.length_pos_iff]; exact fun e => hn (.inl e)
    simp; omega

theorem pWord_len {w s r : List Char} (h : pWord w s = some r) : r.length ≤ s.length := by
  unfold pWord at h
  split at h <;> cases h
  simp

theorem head_tail_len {s : List Char} {c : Char} (h : s.head? = some c) : s.tail.length + 1 = s.length := by
  cases s <;> simp at h ⊢

/-- What follows a value is shorter than the text. -/
theorem parser_len (n : Nat) :
    (∀ s p, pValue n s = some p → p.2.length < s.length) ∧
    (∀ s p, pMembers n s = some p → p.2.length < s.length) ∧
    (∀ s p, pElems n s = some p → p.2.length < s.length) := by
  induction n with
  | zero => simp [pValue, pMembers, pElems]
  | succ n ih =>
    obtain ⟨i1, i2, i3⟩ := ih
    refine ⟨?_, ?_, ?_⟩
    · intro s p h
      have hw := skipWs_len s
      simp only [pValue] at h
      split at h
      · cases h
      · rename_i c r hs
        rw [hs] at hw
        simp at hw
        have hw2 := skipWs_len r
        split at h
        · split at h
          · rename_i hh; have := head_tail_len hh; cases h; simp at this ⊢; omega
          · simp only [Option.map_eq_some_iff] at h
            obtain ⟨q, hq, rfl⟩ := h
            have := i2 _ _ hq; simp; omega
        · split at h
          · split at h
            · rename_i hh; have := head_tail_len hh; cases h; simp at this ⊢; omega
            · simp only [Option.map_eq_some_iff] at h
              obtain ⟨q, hq, rfl⟩ := h
              have := i3 _ _ hq; simp; omega
          · split at h
            · simp only [Option.map_eq_some_iff] at h
              obtain ⟨q, hq, rfl⟩ := h
              have := pString_len hq; simp; omega
            · split at h
              · simp only [Option.map_eq_some_iff] at h
                obtain ⟨q, hq, rfl⟩ := h
                have := pWord_len hq; simp; omega
              · split at h
                · simp only [Option.map_eq_some_iff] at h
                  obtain ⟨q, hq, rfl⟩ := h
                  have := pWord_len hq; simp; omega
                · split at h
                  · simp only [Option.map_eq_some_iff] at h
                    obtain ⟨q, hq, rfl⟩ := h
                    have := pWord_len hq; simp; omega
                  · simp only [Option.map_eq_some_iff] at h
                    obtain ⟨q, hq, rfl⟩ := h
                    have := pNumber_len hq; simp at this ⊢; omega
    · intro s p h
      have hw := skipWs_len s
      simp only [pMembers] at h
      split at h
      · cases h
      · rename_i c r hs
        rw [hs] at hw
        simp at hw
        split at h
        · simp only [Option.bind_eq_some_iff] at h
          obtain ⟨k, hk, h⟩ := h
          have a1 := pString_len hk
          have a2 := skipWs_len k.2
          split at h
          · rename_i hc
            have a3 := head_tail_len hc
            simp only [Option.bind_eq_some_iff] at h
            obtain ⟨v, hv, h⟩ := h
            have a4 := i1 _ _ hv
            have a5 := skipWs_len v.2
            split at h
            · rename_i hc
              have a6 := head_tail_len hc
              simp only [Option.map_eq_some_iff] at h
              obtain ⟨q, hq, rfl⟩ := h
              have := i2 _ _ hq
              simp at *; omega
            · split at h
              · rename_i hc
                have a6 := head_tail_len hc
                cases h
                simp at *; omega
              · cases h
          · cases h
        · cases h
    · intro s p h
      simp only [pElems, Option.bind_eq_some_iff] at h
      obtain ⟨v, hv, h⟩ := h
      have a4 := i1 _ _ hv
      have a5 := skipWs_len v.2
      split at h
      · rename_i hc
        have a6 := head_tail_len hc
        simp only [Option.map_eq_some_iff] at h
        obtain ⟨q, hq, rfl⟩ := h
        have := i3 _ _ hq
        simp at *; omega
      · split at h
        · rename_i hc
          have a6 := head_tail_len hc
          cases h
          simp at *; omega
        · cases h

/-- Beyond the bound one more makes no difference. -/
theorem parser_more (n : Nat) :
    (∀ s, 2 * s.length + 1 ≤ n → pValue n s = pValue (n + 1) s) ∧
    (∀ s, 2 * s.length + 1 ≤ n → pMembers n s = pMembers (n + 1) s) ∧
    (∀ s, 2 * s.length + 2 ≤ n → pElems n s = pElems (n + 1) s) := by
  induction n with
  | zero => exact ⟨by omega, by omega, by omega⟩
  | succ n ih =>
    obtain ⟨i1, i2, i3⟩ := ih
    refine ⟨?_, ?_, ?_⟩
    · intro s hn
      have hw := skipWs_len s
      conv => lhs; rw [pValue]
      conv => rhs; rw [pValue]
      cases hs : skipWs s with
      | nil => rfl
      | cons c r =>
        rw [hs] at hw
        simp at hw
        simp only []
        rw [i2 r (by omega), i3 r (by omega)]
    · intro s hn
      have hw := skipWs_len s
      conv => lhs; rw [pMembers]
      conv => rhs; rw [pMembers]
      cases hs : skipWs s with
      | nil => rfl
      | cons c r =>
        rw [hs] at hw
        simp at hw
        simp only []
        split
        · apply Option.bind_congr
          intro k hk
          have a1 := pString_len hk
          have a2 := skipWs_len k.2
          split
          · rename_i hc
            have a3 := head_tail_len hc
            rw [← i1 _ (by omega)]
            apply Option.bind_congr
            intro v hv
            have a4 := (parser_len n).1 _ _ hv
            have a5 := skipWs_len v.2
            rw [← i2 (skipWs v.2).tail (by simp at *; omega)]
          · rfl
        · rfl
    · intro s hn
      conv => lhs; rw [pElems]
      conv => rhs; rw [pElems]
      rw [← i1 _ (by omega)]
      apply Option.bind_congr
      intro v hv
      have a4 := (parser_len n).1 _ _ hv
      have a5 := skipWs_len v.2
      split
      · rename_i hc
        have a6 := head_tail_len hc
        rw [i3 (skipWs v.2).tail (by simp at *; omega)]
      · rfl

theorem pValue_bound {n m : Nat} {s : List Char} (h : 2 * s.length + 1 ≤ n) (hm : n ≤ m) : pValue m s = pValue n s := by
  induction hm with
  | refl => rfl
  | step hm ih => rw [← (parser_more _).1 s (Nat.le_trans h hm), ih]

end Verif.Lemmas
