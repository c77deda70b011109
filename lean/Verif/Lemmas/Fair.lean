import Verif.Spec.Fair

/-
What fairness gives.
-/

namespace Verif.Lemmas

open Verif.Spec

variable {σ Λ : Type} {step : σ → Λ → Option σ}

/-- What is reached and kept by steps holds along the execution. -/
theorem exec_keep (e : Exec step) {Q : σ → Prop} (hQ : ∀ s l s', Q s → step s l = some s' → Q s') {n : Nat}
    (h : Q (e.st n)) : ∀ m, n ≤ m → Q (e.st m) := by
  intro m hm
  induction hm with
  | refl => exact h
  | step hm ih =>
    next m =>
    have := e.next m
    split at this
    · exact hQ _ _ _ ih this
    · rw [this]; exact ih

/-- The basic rule: if `Q` holds, is left only for `R`, is left for `R` by every step of `A`, and as long as it
holds `A` can move again and again, then `R` is reached. -/
theorem leads_lab (e : Exec step) {A : Λ → Prop} (hf : Fairly e A) {Q R : σ → Prop} {n0 : Nat}
    (hstep : ∀ m, n0 ≤ m → Q (e.st m) → ∀ l, e.lab m = some l → step (e.st m) l = some (e.st (m + 1)) →
      R (e.st (m + 1)) ∨ Q (e.st (m + 1)) ∧ ¬ A l)
    (hen : ∀ n, n0 ≤ n → (∀ m, n ≤ m → Q (e.st m)) → ∃ m, n ≤ m ∧ Enabled step A (e.st m)) {n : Nat} (hn : n0 ≤ n)
    (h : Q (e.st n)) : ∃ m, n ≤ m ∧ R (e.st m) := by
  apply Classical.byContradiction
  intro hR
  have hR' : ∀ m, n ≤ m → ¬ R (e.st m) := fun m hm hr => hR ⟨m, hm, hr⟩
  have hQ : ∀ m, n ≤ m → Q (e.st m) := by
    intro m hm
    induction hm with
    | refl => exact h
    | step hm ih =>
      next m =>
      have := e.next m
      split at this
      · next l hl =>
        rcases hstep m (Nat.le_trans hn hm) ih _ hl this with h1 | h1
        · exact absurd h1 (hR' _ (Nat.le_succ_of_le hm))
        · exact h1.1
      · rw [this]; exact ih
  obtain ⟨m, l, hm, hl, ha⟩ := hf (fun k => by
    obtain ⟨m, h1, h2⟩ := hen (max n k) (by omega) (fun m hm => hQ m (by omega))
    exact ⟨m, by omega, h2⟩) n
  have := e.next m
  rw [hl] at this
  rcases hstep m (by omega) (hQ m hm) l hl this with h1 | h1
  · exact hR' _ (by omega) h1
  · exact h1.2 ha

/-- The rule with a rank: the steps of `A` use up the rank, no other step raises it. -/
theorem leads_rank_lab (e : Exec step) {A : Λ → Prop} (hf : Fairly e A) {Q R : σ → Prop} (rank : σ → Nat) {n0 : Nat}
    (hstep : ∀ m, n0 ≤ m → Q (e.st m) → ∀ l, e.lab m = some l → step (e.st m) l = some (e.st (m + 1)) →
      R (e.st (m + 1)) ∨ Q (e.st (m + 1)) ∧ rank (e.st (m + 1)) ≤ rank (e.st m) ∧
        (A l → rank (e.st (m + 1)) < rank (e.st m)))
    (hen : ∀ n, n0 ≤ n → (∀ m, n ≤ m → Q (e.st m)) → ∃ m, n ≤ m ∧ Enabled step A (e.st m)) {n : Nat} (hn : n0 ≤ n)
    (h : Q (e.st n)) : ∃ m, n ≤ m ∧ R (e.st m) := by
  generalize hk : rank (e.st n) = k
  induction k using Nat.strongRecOn generalizing n with
  | _ k ih =>
    obtain ⟨m, h1, h2⟩ := leads_lab e hf (Q := fun s => Q s ∧ rank s = k) (R := fun s => R s ∨ Q s ∧ rank s < k) (n0 := n)
      (fun m hm hq l hl hs => by
        rcases hstep m (Nat.le_trans hn hm) hq.1 l hl hs with h1 | ⟨h1, h2, h3⟩
        · exact .inl (.inl h1)
        · by_cases hr : rank (e.st (m + 1)) < k
          · exact .inl (.inr ⟨h1, hr⟩)
          · refine .inr ⟨⟨h1, ?_⟩, fun ha => ?_⟩
            · have := hq.2; omega
            · have := h3 ha; have := hq.2; omega)
      (fun m hm hq => hen m (Nat.le_trans hn hm) fun m' hm' => (hq m' hm').1) (Nat.le_refl _) ⟨h, hk⟩
    rcases h2 with h2 | ⟨h2, h3⟩
    · exact ⟨m, h1, h2⟩
    · obtain ⟨m', g1, g2⟩ := ih _ h3 (Nat.le_trans hn h1) h2 rfl
      exact ⟨m', Nat.le_trans h1 g1, g2⟩

/-- The basic rule, for any label of the step: if `Q` holds, is left only for `R`, is left for `R` by every step of `A`, and as long as it
holds `A` can move again and again, then `R` is reached. -/
theorem leads (e : Exec step) {A : Λ → Prop} (hf : Fairly e A) {Q R : σ → Prop} {n0 : Nat}
    (hstep : ∀ m, n0 ≤ m → Q (e.st m) → ∀ l, step (e.st m) l = some (e.st (m + 1)) →
      R (e.st (m + 1)) ∨ Q (e.st (m + 1)) ∧ ¬ A l)
    (hen : ∀ n, n0 ≤ n → (∀ m, n ≤ m → Q (e.st m)) → ∃ m, n ≤ m ∧ Enabled step A (e.st m)) {n : Nat} (hn : n0 ≤ n)
    (h : Q (e.st n)) : ∃ m, n ≤ m ∧ R (e.st m) :=
  leads_lab e hf (fun m hm hq l _ hs => hstep m hm hq l hs) hen hn h

/-- The rule with a rank, for any label of the step: the steps of `A` use up the rank, no other step raises it. -/
theorem leads_rank (e : Exec step) {A : Λ → Prop} (hf : Fairly e A) {Q R : σ → Prop} (rank : σ → Nat) {n0 : Nat}
    (hstep : ∀ m, n0 ≤ m → Q (e.st m) → ∀ l, step (e.st m) l = some (e.st (m + 1)) →
      R (e.st (m + 1)) ∨ Q (e.st (m + 1)) ∧ rank (e.st (m + 1)) ≤ rank (e.st m) ∧
        (A l → rank (e.st (m + 1)) < rank (e.st m)))
    (hen : ∀ n, n0 ≤ n → (∀ m, n ≤ m → Q (e.st m)) → ∃ m, n ≤ m ∧ Enabled step A (e.st m)) {n : Nat} (hn : n0 ≤ n)
    (h : Q (e.st n)) : ∃ m, n ≤ m ∧ R (e.st m) :=
  leads_rank_lab e hf rank (fun m hm hq l _ hs => hstep m hm hq l hs) hen hn h

/-- A sequence of steps. -/
def runSteps (step : σ → Λ → Option σ) (s : σ) : List Λ → Option σ
  | [] => some s
  | l :: ls => (step s l).bind fun s => runSteps step s ls

theorem runSteps_append (s : σ) (xs ys : List Λ) :
    runSteps step s (xs ++ ys) = (runSteps step s xs).bind fun s => runSteps step s ys := by
  induction xs generalizing s with
  | nil => rfl
  | cons x xs ih =>
    simp only [List.cons_append, runSteps]
    cases step s x with
    | none => rfl
    | some s => exact ih s

/-- A finite run, after which a step that changes nothing is repeated, or nothing happens. -/
def execFin (step : σ → Λ → Option σ) (s0 : σ) (ls : List Λ) (s : σ) (h : runSteps step s0 ls = some s)
    (fin : Option Λ) (hfin : ∀ l, fin = some l → step s l = some s) : Exec step where
  st n := (runSteps step s0 (ls.take n)).getD s
  lab n := if n < ls.length then ls[n]? else fin
  next n := by
    have key : ∀ k, ∃ t, runSteps step s0 (ls.take k) = some t ∧ runSteps step t (ls.drop k) = some s := by
      intro k
      have h' := h
      rw [← List.take_append_drop k ls] at h'
      cases hk : runSteps step s0 (ls.take k) with
      | none => rw [runSteps_append, hk] at h'; cases h'
      | some t => rw [runSteps_append, hk] at h'; exact ⟨t, rfl, h'⟩
    by_cases hlt : n < ls.length
    · obtain ⟨t, ht, ht'⟩ := key n
      have hl : ls[n]? = some ls[n] := List.getElem?_eq_getElem hlt
      rw [if_pos hlt, hl]
      rw [List.drop_eq_getElem_cons hlt, runSteps] at ht'
      cases hs : step t ls[n] with
      | none => rw [hs] at ht'; cases ht'
      | some t' =>
        have : runSteps step s0 (ls.take (n + 1)) = some t' := by
          rw [List.take_add_one, hl, runSteps_append, ht]
          simp [runSteps, hs]
        simp only [ht, this, Option.getD_some]
        exact hs
    · rw [if_neg hlt, List.take_of_length_le (by omega), List.take_of_length_le (by omega), h]
      cases fin with
      | none => rfl
      | some l => exact hfin l rfl

theorem execFin_end {s0 s : σ} {ls : List Λ} (h : runSteps step s0 ls = some s) {fin : Option Λ}
    (hfin : ∀ l, fin = some l → step s l = some s) {n : Nat} (hn : ls.length ≤ n) :
    (execFin step s0 ls s h fin hfin).st n = s := by
  simp [execFin, List.take_of_length_le hn, h]

/-- A goroutine that can not move at the end is treated fairly. -/
theorem execFin_fairly {s0 s : σ} {ls : List Λ} (h : runSteps step s0 ls = some s) {fin : Option Λ}
    (hfin : ∀ l, fin = some l → step s l = some s) {A : Λ → Prop} (hA : ∀ l, A l → step s l = none) :
    Fairly (execFin step s0 ls s h fin hfin) A := by
  intro hen
  obtain ⟨m, hm, l, s', h1, h2⟩ := hen ls.length
  rw [execFin_end h hfin hm, hA l h1] at h2
  cases h2

/-- A finite run, after which one step is repeated for ever, through the states `tail`. -/
def execTail (step : σ → Λ → Option σ) (s0 : σ) (ls : List Λ) (tail : Nat → σ) (l : Λ)
    (h : runSteps step s0 ls = some (tail 0)) (ht : ∀ n, step (tail n) l = some (tail (n + 1))) : Exec step where
  st n := if n < ls.length then (runSteps step s0 (ls.take n)).getD (tail 0) else tail (n - ls.length)
  lab n := some (if n < ls.length then ls[n]?.getD l else l)
  next n := by
    have key : ∀ k, ∃ t, runSteps step s0 (ls.take k) = some t ∧ runSteps step t (ls.drop k) = some (tail 0) := by
      intro k
      have h' := h
      rw [← List.take_append_drop k ls] at h'
      cases hk : runSteps step s0 (ls.take k) with
      | none => rw [runSteps_append, hk] at h'; cases h'
      | some t => rw [runSteps_append, hk] at h'; exact ⟨t, rfl, h'⟩
    by_cases hlt : n < ls.length
    · obtain ⟨t, ht1, ht'⟩ := key n
      have hl : ls[n]? = some ls[n] := List.getElem?_eq_getElem hlt
      rw [List.drop_eq_getElem_cons hlt, runSteps] at ht'
      cases hs : step t ls[n] with
      | none => rw [hs] at ht'; cases ht'
      | some t' =>
        have h2 : runSteps step s0 (ls.take (n + 1)) = some t' := by
          rw [List.take_add_one, hl, runSteps_append, ht1]
          simp [runSteps, hs]
        simp only [if_pos hlt, ht1, hl, Option.getD_some]
        by_cases hlt' : n + 1 < ls.length
        · rw [if_pos hlt', h2]; exact hs
        · rw [if_neg hlt']
          have hn : n + 1 = ls.length := by omega
          rw [hn, List.take_length, h] at h2
          rw [hn, Nat.sub_self, Option.some.inj h2]
          exact hs
    · simp only [if_neg hlt]
      rw [if_neg (by omega), show n + 1 - ls.length = n - ls.length + 1 by omega]
      exact ht _

theorem execTail_mid {s0 : σ} {ls : List Λ} {tail : Nat → σ} {l : Λ} (h : runSteps step s0 ls = some (tail 0))
    (ht : ∀ n, step (tail n) l = some (tail (n + 1))) {n : Nat} {t : σ} (hn : n < ls.length)
    (hr : runSteps step s0 (ls.take n) = some t) : (execTail step s0 ls tail l h ht).st n = t := by
  simp [execTail, hn, hr]

theorem execTail_end {s0 : σ} {ls : List Λ} {tail : Nat → σ} {l : Λ} (h : runSteps step s0 ls = some (tail 0))
    (ht : ∀ n, step (tail n) l = some (tail (n + 1))) {n : Nat} (hn : ls.length ≤ n) :
    (execTail step s0 ls tail l h ht).st n = tail (n - ls.length) := by
  simp [execTail, Nat.not_lt.2 hn]

theorem execTail_fairly {s0 : σ} {ls : List Λ} {tail : Nat → σ} {l : Λ} (h : runSteps step s0 ls = some (tail 0))
    (ht : ∀ n, step (tail n) l = some (tail (n + 1))) {A : Λ → Prop} (hA : ∀ l' n, A l' → step (tail n) l' = none) :
    Fairly (execTail step s0 ls tail l h ht) A := by
  intro hen
  obtain ⟨m, hm, l', s', h1, h2⟩ := hen ls.length
  rw [execTail_end h ht hm, hA l' _ h1] at h2
  cases h2

end Verif.Lemmas
