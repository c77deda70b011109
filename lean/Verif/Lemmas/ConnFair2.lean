import Verif.Lemmas.ConnFair
import Verif.Lemmas.ConnRelease

/-
Fair executions of the connection machine: requests come to an end.
-/

set_option linter.unusedSimpArgs false
set_option maxHeartbeats 4000000

namespace Verif.Lemmas.Conn

open Verif.Go Verif.Model Verif.Model.Conn Verif.Spec

variable {lv : LoopVars} {e : Exec (step lv)}

theorem req_step {s s' : St} {l : Label} {u : Nat} (hu : u < s.nReq) (hs : step lv s l = some s') :
    u < s'.nReq ∧ s'.req u = s.req u ∧ (s.field u = false → s'.field u = false) := by
  conn_step hs
  all_goals first
    | exact ⟨hu, rfl, id⟩
    | grind [upd]

theorem sending_moves {s s' : St} {l : Label} {u : Nat} (hu : u < s.nReq) (hc : s.client u = .sending)
    (hs : step lv s l = some s') : s'.crashed ≠ none ∨ s'.client u = (if (s.req u).hasChan then .handed else .done) ∨
      s'.client u = .sending ∧ ¬ ∃ w, l = .take w (.client u) := by
  conn_step hs
  all_goals try (refine .inl ?_; simp; done)
  all_goals first
    | (refine .inr (.inr ⟨hc, ?_⟩); simp; done)
    | grind [upd]

theorem handed_moves {s s' : St} {l : Label} {u : Nat} (hu : u < s.nReq) (hc : s.client u = .handed)
    (hs : step lv s l = some s') : s'.crashed ≠ none ∨ (s'.client u = .has ∨ s'.client u = .nilChan) ∨
      s'.client u = .handed ∧ ¬ ∃ op, l = .client u op := by
  conn_step hs
  all_goals try (refine .inl ?_; simp; done)
  all_goals first
    | (refine .inr (.inr ⟨hc, ?_⟩); simp; done)
    | grind [upd]

theorem has_moves {s s' : St} {l : Label} {u : Nat} (hu : u < s.nReq) (hf : s.field u = false) (hc : s.client u = .has)
    (hs : step lv s l = some s') : s'.crashed ≠ none ∨ s'.client u = .done ∨
      s'.client u = .has ∧ ¬ ∃ op, l = .client u op := by
  conn_step hs
  all_goals try (refine .inl ?_; simp; done)
  all_goals first
    | (refine .inr (.inr ⟨hc, ?_⟩); simp; done)
    | grind [upd]

theorem received_moves {s s' : St} {l : Label} {u : Nat} (hu : u < s.nReq) (hc : s.client u = .received)
    (hs : step lv s l = some s') : s'.crashed ≠ none ∨ (s'.client u = .has ∨ s'.client u = .done) ∨
      s'.client u = .received ∧ ¬ ∃ op, l = .client u op := by
  conn_step hs
  all_goals try (refine .inl ?_; simp; done)
  all_goals first
    | (refine .inr (.inr ⟨hc, ?_⟩); simp; done)
    | grind [upd]

theorem writer_pre_step {s s' : St} {w u : Nat} (hp : wPreT (s.writer w) = some u) (ht : (s.req u).timeout = true)
    (hs : step lv s (.writer w) = some s') : s'.crashed ≠ none ∨
      (wPreT (s'.writer w) = some u ∧ wDist (s'.writer w) < wDist (s.writer w)) ∨
      ∃ t, tLive (s'.timer t) = some u := by
  simp only [step] at hs
  split at hs
  · cases hs
  unfold writerStep at hs
  cases hx : s.writer w <;> simp only [hx, wPreT, Option.some.injEq, reduceCtorEq] at hp hs <;> subst hp
  case timer u =>
    rw [if_pos ht] at hs
    cases hs
    exact .inr (.inr ⟨s.nTimer, by simp [tLive]⟩)
  all_goals repeat' split at hs
  all_goals try (cases hs; done)
  all_goals cases hs
  all_goals first
    | (refine .inl ?_; simp [St.crash]; done)
    | (refine .inr (.inl ?_); simp [wPreT, wDist]; done)

/-- How far a timeout worker is from its end. -/
def tDist : TimerAt → Nat
  | .sleep _ => 10
  | x => tRank x

theorem timer_moves {s s' : St} {l : Label} {t : Nat} (hf : Fresh s) (hd : 0 < tDist (s.timer t))
    (hs : step lv s l = some s') : s'.crashed ≠ none ∨
      (if l = .timer t then tDist (s'.timer t) < tDist (s.timer t) else s'.timer t = s.timer t) := by
  have f1 := hf.timer
  conn_step hs
  all_goals try (refine .inl ?_; simp; done)
  all_goals grind [tDist, tRank, cRank, upd]

theorem timer_live_step {s s' : St} {t u : Nat} (h : Reachable lv s) (hp : tLive (s.timer t) = some u)
    (hs : step lv s (.timer t) = some s') : s'.crashed ≠ none ∨ tLive (s'.timer t) = some u ∨ s'.field u = false := by
  have ho := (openInv h).timed t u
  have hL := (lockInv h).t t
  simp only [step] at hs
  split at hs
  · cases hs
  unfold timerStep at hs
  cases hx : s.timer t <;> simp only [hx, tLive, Option.some.injEq, reduceCtorEq] at hp hs <;> subst hp
  case look u =>
    split at hs
    · cases hs; exact .inl (by simp [St.crash])
    split at hs
    · cases hs; exact .inr (.inl (by simp [tLive]))
    · next hm =>
      cases hs
      refine .inr (.inr ?_)
      cases hfu : s.field u with
      | false => rfl
      | true =>
        rcases ho (by simp [hx, tReq]) hfu with h1 | ⟨a, h1⟩
        · exact absurd h1 hm
        · have := hL.1 (by simp [hx, tCrit])
          simp [closingOf, this, hx, tClosing] at h1
  case closing u a =>
    cases a <;> simp only [closeStep] at hs
    · split at hs
      · cases hs; exact .inr (.inl (by simp [tLive]))
      · next hf => cases hs; exact .inr (.inr (by simpa using hf))
    · split at hs
      · cases hs; exact .inr (.inl (by simp [tLive]))
      · cases hs; exact .inl (by simp [St.crash])
    · cases hs; exact .inr (.inr (by simp))
  all_goals repeat' split at hs
  all_goals try (cases hs; done)
  all_goals cases hs
  all_goals exact .inr (.inl (by simp [tLive]))

theorem timer_can {s : St} {t : Nat} (hn : s.crashed = none) (hd : 0 < tDist (s.timer t))
    (hl : tDist (s.timer t) = 10 → s.lock = none) : Enabled (step lv) (fun l => l = .timer t) s := by
  unfold Enabled
  cases hx : s.timer t <;> simp only [hx, tDist, tRank] at hd hl <;> try (exact absurd hd (by decide))
  all_goals refine ⟨.timer t, ?_⟩
  all_goals first
    | simp [step, hn, timerStep, hx, hl]; done
    | (simp only [step, hn, timerStep, hx, Option.isSome_none, Bool.false_eq_true, if_false]
       repeat' split
       all_goals exact ⟨_, trivial, rfl⟩)

theorem timer_progress (hf : FairConn e) (hr : Reachable lv (e.st 0)) (hn : ∀ n, (e.st n).crashed = none) (t n : Nat)
    (x : TimerAt) (hx : (e.st n).timer t = x) (hd : 0 < tDist x) :
    ∃ m s, n ≤ m ∧ s = e.st m ∧ s.timer t = x ∧ step lv s (.timer t) = some (e.st (m + 1)) := by
  apply Classical.byContradiction
  intro hno
  have hstay : ∀ m, n ≤ m → (e.st m).timer t = x := by
    intro m hm
    induction hm with
    | refl => exact hx
    | step hm ih =>
      next m =>
      have hnx := e.next m
      split at hnx
      · next l hl =>
        rcases timer_moves (fresh (exec_reach hr m)) (t := t) (by rw [ih]; exact hd) hnx with h1 | h1
        · exact absurd (hn _) h1
        · split at h1
          · next el => subst el; exact absurd ⟨m, _, hm, rfl, ih, hnx⟩ hno
          · rw [h1]; exact ih
      · rw [hnx]; exact ih
  obtain ⟨m, l, hm, hl, rfl⟩ := hf.timer t (fun k => by
    obtain ⟨m, hm, h'⟩ := lock_free hf hr hn (max k n)
    have hm' : n ≤ m := Nat.le_trans (Nat.le_max_right k n) hm
    refine ⟨m, Nat.le_trans (Nat.le_max_left k n) hm, timer_can (hn _) ?_ fun _ => h'⟩
    rw [hstay m hm']; exact hd) n
  have hnx := e.next m
  rw [hl] at hnx
  exact hno ⟨m, _, hm, rfl, hstay m hm, hnx⟩

/-- A timeout worker ends its request. -/
theorem timer_ends (hf : FairConn e) (hr : Reachable lv (e.st 0)) (hn : ∀ n, (e.st n).crashed = none) (t u : Nat) :
    ∀ n, tLive ((e.st n).timer t) = some u → ∃ m, n ≤ m ∧ (e.st m).field u = false := by
  intro n ht
  generalize hk : tDist ((e.st n).timer t) = k
  induction k using Nat.strongRecOn generalizing n with
  | _ k ih =>
    have hd : 0 < k := by
      cases hx : (e.st n).timer t <;> simp [hx, tLive, tDist, tRank] at ht hk <;> omega
    obtain ⟨m, s, hm, rfl, h1, h2⟩ := timer_progress hf hr hn t n _ rfl (by omega)
    have hd' : 0 < tDist ((e.st m).timer t) := by rw [h1]; omega
    rcases timer_moves (fresh (exec_reach hr m)) hd' h2 with h3 | h3
    · exact absurd (hn _) h3
    rw [if_pos rfl, h1, hk] at h3
    rcases timer_live_step (exec_reach hr m) (by rw [h1]; exact ht) h2 with h4 | h4 | h4
    · exact absurd (hn _) h4
    · obtain ⟨m', g1, g2⟩ := ih _ h3 (m + 1) h4 rfl
      exact ⟨m', by omega, g2⟩
    · exact ⟨m + 1, by omega, h4⟩

theorem exec_req (n : Nat) {u : Nat} (hu : u < (e.st n).nReq) : ∀ m, n ≤ m →
    u < (e.st m).nReq ∧ (e.st m).req u = (e.st n).req u :=
  exec_keep e (Q := fun s => u < s.nReq ∧ s.req u = (e.st n).req u)
    (fun s l s' ⟨h1, h2⟩ hs => by
      obtain ⟨g1, g2, -⟩ := req_step h1 hs
      exact ⟨g1, g2.trans h2⟩) ⟨hu, rfl⟩

theorem exec_field (n : Nat) {u : Nat} (hu : u < (e.st n).nReq) (hf : (e.st n).field u = false) : ∀ m, n ≤ m →
    (e.st m).field u = false := fun m hm =>
  (exec_keep e (Q := fun s => u < s.nReq ∧ s.field u = false)
    (fun s l s' ⟨h1, h2⟩ hs => by
      obtain ⟨g1, -, g2⟩ := req_step h1 hs
      exact ⟨g1, g2 h2⟩) ⟨hu, hf⟩ m hm).2

/-- A writer that holds a request with a timeout starts its timeout worker. -/
theorem writer_starts_timer (hf : FairConn e) (hr : Reachable lv (e.st 0)) (hn : ∀ n, (e.st n).crashed = none) (w u : Nat) :
    ∀ n, u < (e.st n).nReq → ((e.st n).req u).timeout = true → wPreT ((e.st n).writer w) = some u →
      ∃ m t, n ≤ m ∧ tLive ((e.st m).timer t) = some u := by
  intro n hu ht hw
  generalize hk : wDist ((e.st n).writer w) = k
  induction k using Nat.strongRecOn generalizing n with
  | _ k ih =>
    have hd : 0 < k := by
      cases hx : (e.st n).writer w <;> simp [hx, wPreT, wDist] at hw hk <;> omega
    obtain ⟨m, s, hm, rfl, h1, -, h2⟩ := writer_progress hf hr hn w n _ rfl (by omega)
    obtain ⟨q1, q2⟩ := exec_req n hu m hm
    obtain ⟨q3, q4⟩ := exec_req n hu (m + 1) (by omega)
    rcases writer_pre_step (by rw [h1]; exact hw) (by rw [q2]; exact ht) h2 with h3 | ⟨h3, h4⟩ | ⟨t, h3⟩
    · exact absurd (hn _) h3
    · rw [h1, hk] at h4
      obtain ⟨m', t, g1, g2⟩ := ih _ h4 (m + 1) q3 (by rw [q4]; exact ht) h3 rfl
      exact ⟨m', t, by omega, g2⟩
    · exact ⟨m + 1, t, by omega, h3⟩

/-- A request that was handed over and has a timeout is closed. -/
theorem request_closed (hf : FairConn e) (hr : Reachable lv (e.st 0)) (hn : ∀ n, (e.st n).crashed = none) (u n : Nat)
    (hu : u < (e.st n).nReq) (ht : ((e.st n).req u).timeout = true) (hc : (e.st n).client u ≠ .sending) :
    ∃ m, n ≤ m ∧ (e.st m).field u = false := by
  cases hfu : (e.st n).field u with
  | false => exact ⟨n, Nat.le_refl _, hfu⟩
  | true =>
    rcases timedInv (exec_reach hr n) u hfu ht with h1 | ⟨w, h1⟩ | ⟨t, h1⟩
    · exact absurd h1 hc
    · obtain ⟨m, t, g1, g2⟩ := writer_starts_timer hf hr hn w u n hu ht h1
      obtain ⟨m', g3, g4⟩ := timer_ends hf hr hn t u m g2
      exact ⟨m', by omega, g4⟩
    · exact timer_ends hf hr hn t u n h1

theorem client_can {s : St} {u : Nat} (hn : s.crashed = none) (h : s.client u = .handed ∨
    s.client u = .has ∧ s.closed u = true ∨ s.client u = .received ∧ s.got u ≠ [] ∧ (s.req u).hasChan = true) :
    Enabled (step lv) (fun l => ∃ op, l = .client u op) s := by
  rcases h with h | ⟨h, h'⟩ | ⟨h, h1, h2⟩
  · exact ⟨.client u .readField, _, ⟨_, rfl⟩, by simp [step, hn, clientStep, h]; rfl⟩
  · exact ⟨.client u .seeClosed, _, ⟨_, rfl⟩, by simp [step, hn, clientStep, h, h']; rfl⟩
  · cases hk : (s.req u).kind with
    | write => simp [Req.hasChan, hk] at h2
    | withTimeout => exact ⟨.client u .again, _, ⟨_, rfl⟩, by simp [step, hn, clientStep, h, hk]; rfl⟩
    | waitReport =>
      refine ⟨.client u .handle, ?_⟩
      cases hg : s.got u with
      | nil => exact absurd hg h1
      | cons a r =>
        obtain ⟨b, msg⟩ := a
        simp only [step, hn, clientStep, h, hk, hg, Option.isSome_none, Bool.false_eq_true, if_false, and_self, if_true]
        cases msg with
        | none => exact ⟨_, ⟨_, rfl⟩, rfl⟩
        | some msg =>
          dsimp only
          split <;> exact ⟨_, ⟨_, rfl⟩, rfl⟩

/-- A request that is offered is taken. -/
theorem sending_ends (hf : FairConn e) (hr : Reachable lv (e.st 0)) (hn : ∀ n, (e.st n).crashed = none) (u n : Nat)
    (hw : 0 < (e.st n).nWriter) (hu : u < (e.st n).nReq) (hc : (e.st n).client u = .sending) :
    ∃ m, n ≤ m ∧ (e.st m).client u = (if ((e.st n).req u).hasChan then .handed else .done) := by
  have hw' : ∀ m, n ≤ m → 0 < (e.st m).nWriter :=
    exec_keep e (Q := fun s => 0 < s.nWriter) (fun s l s' h hs => Nat.lt_of_lt_of_le h (nWriter_step hs)) hw
  refine leads e (hf.take u) (Q := fun s => s.client u = .sending)
    (R := fun s => s.client u = (if ((e.st n).req u).hasChan then .handed else .done)) (n0 := n) ?_ ?_ (Nat.le_refl _) hc
  · intro m hm hq l hs
    obtain ⟨q1, q2⟩ := exec_req n hu m hm
    rcases sending_moves q1 hq hs with h1 | h1 | h1
    · exact absurd (hn _) h1
    · rw [q2] at h1; exact .inl h1
    · exact .inr h1
  · intro m hm hq
    obtain ⟨k, hk, h1⟩ := writer_idle hf hr hn 0 m (hw' m hm)
    refine ⟨k, hk, .take 0 (.client u), ?_⟩
    simp only [step, hn k, Option.isSome_none, Bool.false_eq_true, if_false, takeStep, h1, if_true, hq k hk]
    exact ⟨_, ⟨0, rfl⟩, rfl⟩

theorem handed_ends (hf : FairConn e) (hn : ∀ n, (e.st n).crashed = none) (u n : Nat)
    (hu : u < (e.st n).nReq) (hc : (e.st n).client u = .handed) :
    ∃ m, n ≤ m ∧ ((e.st m).client u = .has ∨ (e.st m).client u = .nilChan) := by
  refine leads e (hf.client u) (Q := fun s => s.client u = .handed)
    (R := fun s => s.client u = .has ∨ s.client u = .nilChan) (n0 := n) ?_ ?_ (Nat.le_refl _) hc
  · intro m hm hq l hs
    rcases handed_moves (exec_req n hu m hm).1 hq hs with h1 | h1 | h1
    · exact absurd (hn _) h1
    · exact .inl h1
    · exact .inr h1
  · intro m hm hq
    exact ⟨m, Nat.le_refl _, client_can (hn m) (.inl (hq m (Nat.le_refl _)))⟩

theorem has_ends (hf : FairConn e) (hr : Reachable lv (e.st 0)) (hn : ∀ n, (e.st n).crashed = none) (u n : Nat)
    (hu : u < (e.st n).nReq) (hfu : (e.st n).field u = false) (hc : (e.st n).client u = .has) :
    ∃ m, n ≤ m ∧ (e.st m).client u = .done := by
  refine leads e (hf.client u) (Q := fun s => s.client u = .has)
    (R := fun s => s.client u = .done) (n0 := n) ?_ ?_ (Nat.le_refl _) hc
  · intro m hm hq l hs
    rcases has_moves (exec_req n hu m hm).1 (exec_field n hu hfu m hm) hq hs with h1 | h1 | h1
    · exact absurd (hn _) h1
    · exact .inl h1
    · exact .inr h1
  · intro m hm hq
    refine ⟨m, Nat.le_refl _, client_can (hn m) (.inr (.inl ⟨hq m (Nat.le_refl _), ?_⟩))⟩
    obtain ⟨k1, k2⟩ := (clientInv (exec_reach hr m)).has u (hq m (Nat.le_refl _))
    rcases (chan (exec_reach hr m)).hasChan u k2 k1 with h1 | h1
    · rw [exec_field n hu hfu m hm] at h1; cases h1
    · exact h1

theorem received_ends (hf : FairConn e) (hr : Reachable lv (e.st 0)) (hn : ∀ n, (e.st n).crashed = none) (u n : Nat)
    (hu : u < (e.st n).nReq) (hc : (e.st n).client u = .received) :
    ∃ m, n ≤ m ∧ ((e.st m).client u = .has ∨ (e.st m).client u = .done) := by
  refine leads e (hf.client u) (Q := fun s => s.client u = .received)
    (R := fun s => s.client u = .has ∨ s.client u = .done) (n0 := n) ?_ ?_ (Nat.le_refl _) hc
  · intro m hm hq l hs
    rcases received_moves (exec_req n hu m hm).1 hq hs with h1 | h1 | h1
    · exact absurd (hn _) h1
    · exact .inl h1
    · exact .inr h1
  · intro m hm hq
    obtain ⟨k1, k2, k3⟩ := (clientInv (exec_reach hr m)).received u (hq m (Nat.le_refl _))
    exact ⟨m, Nat.le_refl _, client_can (hn m) (.inr (.inr ⟨hq m (Nat.le_refl _), k1, k2⟩))⟩

/-- A caller that has its channel is released. -/
theorem past_ends (hf : FairConn e) (hr : Reachable lv (e.st 0)) (hn : ∀ n, (e.st n).crashed = none) (u n : Nat)
    (hu : u < (e.st n).nReq) (ht : ((e.st n).req u).timeout = true) (hc : Past ((e.st n).client u)) :
    ∃ m, n ≤ m ∧ (e.st m).client u = .done := by
  obtain ⟨m, h1, h2⟩ := request_closed hf hr hn u n hu ht (by rcases hc with h | h | h <;> rw [h] <;> simp)
  have hu' := (exec_req n hu m h1).1
  have hp : Past ((e.st m).client u) := (exec_keep e (Q := fun s => u < s.nReq ∧ Past (s.client u))
    (fun s l s' ⟨a, b⟩ hs => ⟨(past_step a b hs).2.1, (past_step a b hs).1⟩) ⟨hu, hc⟩ m h1).2
  rcases hp with h | h | h
  · obtain ⟨m', g1, g2⟩ := has_ends hf hr hn u m hu' h2 h
    exact ⟨m', by omega, g2⟩
  · obtain ⟨m', g1, g2⟩ := received_ends hf hr hn u m hu' h
    rcases g2 with g2 | g2
    · obtain ⟨m2, g3, g4⟩ := has_ends hf hr hn u m' (exec_req n hu m' (by omega)).1 (exec_field m hu' h2 m' g1) g2
      exact ⟨m2, by omega, g4⟩
    · exact ⟨m', by omega, g2⟩
  · exact ⟨m, h1, h⟩

/-- A process that is alive after moment `n` was alive before. -/
theorem alive_before (n : Nat) (hn : ∀ m, n ≤ m → (e.st m).crashed = none) : ∀ m, (e.st m).crashed = none := by
  intro m
  by_cases hm : n ≤ m
  · exact hn m hm
  · apply Classical.byContradiction
    intro hc
    have := exec_keep e (Q := fun s => s.crashed ≠ none) (n := m) (fun s l s' h hs => by
      cases hx : s.crashed with
      | none => exact absurd hx h
      | some p => simp [step, hx] at hs) hc n (by omega)
    exact this (hn n (Nat.le_refl _))

/-- Nobody can move, apart from the port, new callers and new connections. -/
structure Quiet (lv : LoopVars) (s : St) : Prop where
  writer : ∀ w, step lv s (.writer w) = none
  timer : ∀ t, step lv s (.timer t) = none
  reader : ∀ l, isReader l = true → external l = false → step lv s l = none
  result : ∀ w, step lv s (.resultTimeout w) = none
  take : ∀ w u, step lv s (.take w (.client u)) = none
  client : ∀ u op, step lv s (.client u op) = none

/-- A finite run after which nothing happens any more. -/
def execOf (lv : LoopVars) (ls : List Label) (s : St) (h : run lv init ls = some s) : Exec (step lv) where
  st n := (run lv init (ls.take n)).getD s
  lab n := ls[n]?
  next n := by
    have key : ∀ k, ∃ t, run lv init (ls.take k) = some t ∧ run lv t (ls.drop k) = some s := by
      intro k
      have h' := h
      rw [← List.take_append_drop k ls] at h'
      cases hk : run lv init (ls.take k) with
      | none => rw [run_append, hk] at h'; cases h'
      | some t => rw [run_append, hk] at h'; exact ⟨t, rfl, h'⟩
    obtain ⟨t, ht, ht'⟩ := key n
    cases hl : ls[n]? with
    | none =>
      have : ls.length ≤ n := by simpa using hl
      simp [List.take_of_length_le this, List.take_of_length_le (Nat.le_succ_of_le this)]
    | some l =>
      obtain ⟨hlt, hget⟩ := List.getElem?_eq_some_iff.1 hl
      have hd : ls.drop n = l :: ls.drop (n + 1) := by rw [← hget]; exact List.drop_eq_getElem_cons hlt
      rw [hd, run] at ht'
      cases hs : step lv t l with
      | none => rw [hs] at ht'; cases ht'
      | some t' =>
        have : run lv init (ls.take (n + 1)) = some t' := by
          rw [List.take_add_one, hl, run_append, ht]
          simp [run, hs]
        simp only [ht, this, Option.getD_some]
        exact hs

theorem execOf_end {ls : List Label} {s : St} (h : run lv init ls = some s) (n : Nat) (hn : ls.length ≤ n) :
    (execOf lv ls s h).st n = s := by
  simp [execOf, List.take_of_length_le hn, h]

theorem execOf_start {ls : List Label} {s : St} (h : run lv init ls = some s) : (execOf lv ls s h).st 0 = init := by
  simp [execOf, run]

theorem quiet_fair {ls : List Label} {s : St} (h : run lv init ls = some s) (hq : Quiet lv s) :
    FairConn (execOf lv ls s h) := by
  have key : ∀ A : Label → Prop, (∀ l, A l → step lv s l = none) → Fairly (execOf lv ls s h) A := by
    intro A hA hen
    obtain ⟨m, hm, l, s', h1, h2⟩ := hen ls.length
    rw [execOf_end h m hm, hA l h1] at h2
    cases h2
  constructor
  · exact fun w => key _ (by rintro l rfl; exact hq.writer w)
  · exact fun w => key _ (by rintro l rfl; exact hq.timer w)
  · exact key _ (fun l hl => hq.reader l hl.1 hl.2)
  · exact fun w => key _ (by rintro l rfl; exact hq.result w)
  · exact fun u => key _ (by rintro l ⟨w, rfl⟩; exact hq.take w u)
  · exact fun u => key _ (by rintro l ⟨op, rfl⟩; exact hq.client u op)

/-- Enough for nobody to be able to move: everybody is at rest. -/
theorem quiet_of {s : St} (h : Reachable lv s) (hw : ∀ w, w < s.nWriter → s.writer w = .idle)
    (ht : ∀ t, t < s.nTimer → s.timer t = .absent) (hr : s.reader = .read ∨ s.reader = .down)
    (ha : ∀ w, w < s.nWriter → ∀ u, s.result w ≠ .waiting u)
    (hc : ∀ u, u < s.nReq → s.client u = .done ∨ s.client u = .nilChan ∨ s.client u = .sending ∧ s.nWriter = 0) :
    Quiet lv s := by
  have hF := fresh h
  have hw' : ∀ w, s.writer w = .idle ∧ w < s.nWriter ∨ s.writer w = .absent := fun w => by
    by_cases h : w < s.nWriter
    · exact .inl ⟨hw w h, h⟩
    · exact .inr (hF.writer w (by omega))
  have ht' : ∀ t, s.timer t = .absent := fun t => by
    by_cases h : t < s.nTimer
    · exact ht t h
    · exact hF.timer t (by omega)
  have ha' : ∀ w u, s.result w ≠ .waiting u := fun w u => by
    by_cases h : w < s.nWriter
    · exact ha w h u
    · rw [hF.result w (by omega)]; simp
  have hc' : ∀ u, s.client u = .done ∨ s.client u = .nilChan ∨ s.client u = .sending ∧ s.nWriter = 0 := fun u => by
    by_cases h : u < s.nReq
    · exact hc u h
    · exact .inl (hF.client u (by omega))
  constructor
  · intro w
    rcases hw' w with h | h <;> simp [step, writerStep, h]
  · intro t; simp [step, timerStep, ht' t]
  · intro l h1 h2
    cases l <;> simp [isReader] at h1
    next op =>
    rcases hr with h | h <;> cases op <;> simp [external] at h2 <;> simp [step, readerStep, h]
  · intro w
    simp only [step, resultTimeoutStep]
    split
    · rfl
    split
    · next u hu => exact absurd hu (ha' w u)
    · rfl
  · intro w u
    simp only [step, takeStep]
    split
    · rfl
    rcases hw' w with ⟨h, hlt⟩ | h
    · rw [if_pos h]
      rcases hc' u with h1 | h1 | ⟨-, h1⟩
      · simp [h1]
      · simp [h1]
      · omega
    · simp [h]
  · intro u op
    rcases hc' u with h1 | h1 | ⟨h1, -⟩ <;> cases op <;> simp [step, clientStep, h1]

/-- Everybody is at rest, computed. -/
def restB (s : St) : Bool :=
  (List.range s.nWriter).all (fun w => decide (s.writer w = .idle) && !(match s.result w with | .waiting _ => true | _ => false)) &&
  (List.range s.nTimer).all (fun t => decide (s.timer t = .absent)) &&
  (match s.reader with | .read | .down => true | _ => false) &&
  (List.range s.nReq).all fun u => decide (s.client u = .done) || decide (s.client u = .nilChan) ||
    (decide (s.client u = .sending) && s.nWriter == 0)

theorem quiet_of_restB {s : St} (h : Reachable lv s) (hb : restB s = true) : Quiet lv s := by
  simp only [restB, Bool.and_eq_true, List.all_eq_true, List.mem_range, decide_eq_true_eq, Bool.or_eq_true,
    beq_iff_eq] at hb
  obtain ⟨⟨⟨h1, h2⟩, h3⟩, h4⟩ := hb
  refine quiet_of h (fun w hw => (h1 w hw).1) h2 ?_ (fun w hw u hu => ?_) (fun u hu => ?_)
  · split at h3 <;> simp_all
  · have := (h1 w hw).2
    simp [hu] at this
  · rcases h4 u hu with (h5 | h5) | h5
    · exact .inl h5
    · exact .inr (.inl h5)
    · exact .inr (.inr h5)

end Verif.Lemmas.Conn
