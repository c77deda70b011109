import Verif.Lemmas.Connect

/-
C65: the outcome of `ConnectWithCustomPortOpener`, and `Connected`.
-/

set_option linter.unusedSimpArgs false

namespace Verif.Props

open Verif.Model.Connect Verif.Spec Verif.Lemmas.Connect

/-- A millisecond, many times -/
def wait (n : Nat) : List Label := List.replicate n .tick

/-- C65: If the call returns an error, it is the error of an attempt to open the port that failed. -/
theorem C65_error_means_failed_partial (s : St) (h : Steps init s) (k : Nat) (hr : s.main = .returned (some k)) :
    s.outcome k = some false := (inv_steps h).err k hr

/-- C65: If the call returns without an error, an attempt to open the port had succeeded, at least 200 ms ago. -/
theorem C65_success_means_opened_partial (s : St) (h : Steps init s) (hr : s.main = .returned none) :
    ∃ k, s.outcome k = some true ∧ s.openTime k + 200 ≤ s.now := (inv_steps h).ok hr

/-- C65: The answer is final. -/
theorem C65_answer_final (s t : St) (h : Steps s t) (r : Option Nat) (hr : s.main = .returned r) : t.main = .returned r := by
  induction h with
  | refl => exact hr
  | tail l _ hs ih =>
    have ih := ih
    rename_i t u _
    cases l with
    | tick => injection hs with hs; subst hs; exact ih
    | wait => simp [step, ih] at hs
    | opened ok => simp only [step] at hs; split at hs; · injection hs with hs; subst hs; exact ih
                   · cases hs
    | offer => simp only [step, trySend, ih] at hs; split at hs; · injection hs with hs; subst hs; simpa using ih
               · cases hs
    | lost => simp only [step] at hs; split at hs; · injection hs with hs; subst hs; exact ih
              · cases hs
    | deferred => simp only [step] at hs; split at hs; · injection hs with hs; subst hs; exact ih
                  · cases hs
    | wake => simp only [step] at hs; split at hs
              · split at hs
                · injection hs with hs; subst hs; exact ih
                · cases hs
              · cases hs
    | ann k =>
      simp only [step, trySend, ih] at hs
      split at hs
      · split at hs
        · injection hs with hs; subst hs; rfl
        · cases hs
      · injection hs with hs; subst hs; simpa using ih
      · injection hs with hs; subst hs; rfl
      · cases hs

/-- C65: If the call is already waiting when the first attempt to open the port ends, and the announcing
goroutines are not late, the call returns an error if and only if that attempt failed, and its error. -/
theorem C65_first_attempt_partial (s : St) (h : PromptSteps init s) (hw : s.heard 0 = true) (r : Option Nat)
    (hr : s.main = .returned r) :
    (r = none ∧ s.outcome 0 = some true) ∨ (r = some 0 ∧ s.outcome 0 = some false) := by
  rcases (pinv_steps h).first hw with ⟨a, _⟩ | ⟨a, b⟩ | ⟨a, b⟩
  · rw [hr] at a; cases a
  · rw [hr] at a; injection a with a; exact .inl ⟨a, b⟩
  · rw [hr] at a; injection a with a; exact .inr ⟨a, b⟩

/-- C65: The call does return: less than a second after an attempt that succeeded while the call was waiting. -/
theorem C65_returns_after_success (s : St) (h : PromptSteps init s) (k : Nat) (hw : s.heard k = true)
    (ho : s.outcome k = some true) (ht : s.openTime k + 1000 ≤ s.now) : ∃ r, s.main = .returned r := by
  have hp := pinv_steps h
  refine hp.answered k hw ho ?_
  have ha := (hp.inv.ann k).2 ho
  cases hx : s.ann k with
  | absent => exact absurd hx ha
  | done => exact .inr rfl
  | set => exact .inl rfl
  | sleep => have := hp.prompt k (.inl hx); omega
  | send => have := hp.prompt k (.inr (.inl hx)); omega

/-- C65: … and in the very next step of the loop after an attempt that failed while the call was waiting. -/
theorem C65_returns_after_failure (s : St) (h : PromptSteps init s) (k : Nat) (hw : s.heard k = true)
    (ho : s.outcome k = some false) (hn : ¬ (k = s.cur ∧ s.loop = .offer)) : ∃ r, s.main = .returned r :=
  (pinv_steps h).refused k hw ho hn

/-- Both outcomes occur. -/
example : ∃ s, PromptSteps init s ∧ (s.heard 0, s.main, s.outcome 0, s.connected) = (true, .returned none, some true, true) :=
  execP_run (ls := .wait :: .opened true :: wait 200 ++ [.ann 0, .ann 0, .ann 0]) (by decide +kernel)
example : ∃ s, PromptSteps init s ∧ (s.heard 0, s.main, s.outcome 0, s.loop) = (true, .returned (some 0), some false, .ending) :=
  execP_run (ls := [.wait, .opened false, .offer]) (by decide +kernel)

/-- C65 does not hold: the first attempt fails before the call waits; its error is lost, and the call succeeds
with a later attempt. -/
theorem C65_violated_error_lost : ∃ s, PromptSteps init s ∧
    (s.outcome 0, s.outcome 1, s.main) = (some false, some true, .returned none) :=
  execP_run (ls := [.opened false, .offer, .wait, .deferred] ++ wait 1000 ++ [.wake, .opened true] ++ wait 200 ++ [.ann 1, .ann 1])
    (by decide +kernel)

/-- C65 does not hold: the port was opened by the first attempt while the call waited, and yet the call returns
the error of a later one (the announcing goroutine is late). -/
theorem C65_violated_success_lost : ∃ s, Steps init s ∧
    (s.heard 0, s.outcome 0, s.main) = (true, some true, .returned (some 1)) :=
  exec_run (ls := [.wait, .opened true, .lost, .deferred] ++ wait 1000 ++ [.wake, .opened false, .offer]) (by decide +kernel)

/-- C65 does not hold: after the call returned an error (and no controller), the loop goes on and can open the
port, which then stays open: nobody has a reference to close it. -/
theorem C65_violated_port_open_after_error (s : St) (k : Nat) (hr : s.main = .returned (some k)) :
    ∃ t, Steps s t ∧ PortUp t ∧ t.main = .returned (some k) := by
  have key : ∀ s : St, ∃ t, Steps s t ∧ PortUp t := by
    have h1 : ∀ s : St, s.loop = .opening → ∃ t, Steps s t ∧ PortUp t := by
      intro s hs
      have ho : ∃ t, step s (.opened true) = some t ∧ t.loop = .reading := by
        simp only [step, hs, if_true]
        exact ⟨_, rfl, rfl⟩
      obtain ⟨t, ht, hu⟩ := ho
      exact ⟨t, .tail (.opened true) (.refl s) ht, hu⟩
    have h2 : ∀ (s : St) (d : Nat), s.loop = .sleep d → ∃ t, Steps s t ∧ PortUp t := by
      intro s d hs
      have hw : step { s with now := s.now + d } .wake = some { s with now := s.now + d, loop := .opening, cur := s.cur + 1 } := by
        simp [step, hs]
      obtain ⟨t, ht, hu⟩ := h1 { s with now := s.now + d, loop := .opening, cur := s.cur + 1 } rfl
      exact ⟨t, steps_trans (.tail .wake (ticks s d) hw) ht, hu⟩
    have h3 : ∀ s : St, s.loop = .ending → ∃ t, Steps s t ∧ PortUp t := by
      intro s hs
      have hd : step s .deferred = some { s with connected := false, loop := .sleep (s.now + 1000) } := by simp [step, hs]
      obtain ⟨t, ht, hu⟩ := h2 { s with connected := false, loop := .sleep (s.now + 1000) } _ rfl
      exact ⟨t, steps_trans (.tail .deferred (.refl s) hd) ht, hu⟩
    intro s
    cases hs : s.loop with
    | opening => exact h1 s hs
    | reading => exact ⟨s, .refl s, hs⟩
    | ending => exact h3 s hs
    | sleep d => exact h2 s d hs
    | offer =>
      have hd : step s .offer = some { trySend s (some s.cur) with loop := .ending } := by simp [step, hs]
      obtain ⟨t, ht, hu⟩ := h3 { trySend s (some s.cur) with loop := .ending } rfl
      exact ⟨t, steps_trans (.tail .offer (.refl s) hd) ht, hu⟩
  obtain ⟨t, ht, hu⟩ := key s
  exact ⟨t, ht, hu, C65_answer_final s t ht _ hr⟩

/-- C65: `Connected` is set a second after the port was opened, as long as it is open. -/
theorem C65_connected_when_open_partial (s : St) (h : PromptSteps init s) (hu : PortUp s)
    (ht : s.openTime s.cur + 1000 ≤ s.now) : s.connected = true := by
  have hp := pinv_steps h
  refine hp.inv.settled hu ?_
  have ha := (hp.inv.ann s.cur).2 (hp.inv.reading hu)
  cases hx : s.ann s.cur with
  | absent => exact absurd hx ha
  | done => rfl
  | set => have := hp.prompt _ (.inr (.inr hx)); omega
  | sleep => have := hp.prompt _ (.inl hx); omega
  | send => have := hp.prompt _ (.inr (.inl hx)); omega

/-- C65: If no port is lost within a second after it was opened, `Connected` implies that the port is open (but for
the moment between the read error and the deferred function). -/
theorem C65_connected_means_open_partial (s : St) (h : PromptSteps init s)
    (hk : ∀ k l, s.lostTime k = some l → s.openTime k + 1000 ≤ l) (hc : s.connected = true) :
    PortUp s ∨ s.loop = .ending := by
  have hp := pinv_steps h
  by_cases h1 : s.loop = .reading
  · exact .inl h1
  · by_cases h2 : s.loop = .ending
    · exact .inr h2
    · exfalso
      obtain ⟨k, t, l, a, b, c, _⟩ := hp.inv.up hc h1 h2
      have := hp.setEarly k t a
      have := hk k l b
      omega

example : ∃ s, PromptSteps init s ∧ (s.connected, s.loop, s.cur, s.lostTime 0, s.openTime 1, s.now) = (true, .reading, 1, some 1001, 2001, 3001) :=
  execP_run (ls := [.wait, .opened true] ++ wait 200 ++ [.ann 0, .ann 0, .ann 0] ++ wait 801 ++ [.lost, .deferred] ++ wait 1000 ++
    [.wake, .opened true] ++ wait 200 ++ [.ann 1, .ann 1, .ann 1] ++ wait 800) (by decide +kernel)

/-- C65 does not hold: the port is lost within 200 ms; `Connected` becomes true afterwards, and stays true for as
long as the next `Open` takes. -/
theorem C65_violated_connected_while_lost (n : Nat) : ∃ s, PromptSteps init s ∧ n ≤ s.now ∧
    (s.connected, s.loop, s.lostTime 0, s.outcome 1) = (true, .opening, some 0, none) := by
  obtain ⟨s, hs, hv⟩ := execP_run (f := fun s => (s.connected, s.loop, s.cur, s.lostTime 0, s.outcome 1))
    (v := (true, LoopAt.opening, 1, some 0, none))
    (ls := [.wait, .opened true, .lost, .deferred] ++ wait 200 ++ [.ann 0, .ann 0, .ann 0] ++ wait 800 ++ [.wake])
    (by decide +kernel)
  simp only [Prod.mk.injEq] at hv
  obtain ⟨v1, v2, v3, v4, v5⟩ := hv
  have hp := pinv_steps hs
  have quiet : ∀ k, s.ann k = .absent ∨ s.ann k = .done := by
    intro k
    by_cases hk : k < s.cur
    · exact hp.old k hk
    · by_cases e : s.ann k = .absent
      · exact .inl e
      · have ho := (hp.inv.ann k).1 e
        by_cases e2 : k = s.cur
        · subst e2; rw [hp.inv.opening v2] at ho; cases ho
        · rw [hp.inv.future k (by omega)] at ho; cases ho
  have run : ∀ n, PromptSteps init { s with now := s.now + n } := by
    intro n
    induction n with
    | zero => exact hs
    | succ n ih =>
      refine .tail .tick ih rfl ?_
      intro k hk
      dsimp only at hk
      rcases quiet k with q | q <;> rw [q] at hk <;> simp at hk
  exact ⟨_, run n, by dsimp only; omega, by simp only [v1, v2, v4, v5]⟩

end Verif.Props
