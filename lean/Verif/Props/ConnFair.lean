import Verif.Lemmas.ConnFair2
import Verif.Lemmas.ConnRuns
import Verif.Props.ConnLive

/-
C96: what is bound to happen. C41 and C35 say that the end of a request can always still be reached; here:
in every infinite execution in which no goroutine is passed over for ever, it is reached.
-/

set_option linter.unusedSimpArgs false

namespace Verif.Props

open Verif.Go Verif.Model Verif.Model.Conn Verif.Spec Verif.Lemmas Verif.Lemmas.Conn

variable {lv : LoopVars} {e : Exec (step lv)}

/-- What holds of every execution in which the process does not die holds of every execution up to the death
of the process. -/
theorem or_dead {P : St → Prop} (n : Nat)
    (h : (∀ m, (e.st m).crashed = none) → ∃ m, n ≤ m ∧ P (e.st m)) :
    ∃ m, n ≤ m ∧ ((e.st m).crashed ≠ none ∨ P (e.st m)) := by
  apply Classical.byContradiction
  intro hno
  have hn : ∀ m, n ≤ m → (e.st m).crashed = none := fun m hm =>
    Classical.byContradiction fun hc => hno ⟨m, hm, .inl hc⟩
  obtain ⟨m, hm, hP⟩ := h (alive_before n hn)
  exact hno ⟨m, hm, .inr hP⟩

/-- C96: the lock is never kept: at every moment, it is free at some later one. -/
theorem C96_lock_released (hf : FairConn e) (hr : Reachable lv (e.st 0)) (n : Nat) :
    ∃ m, n ≤ m ∧ ((e.st m).crashed ≠ none ∨ (e.st m).lock = none) :=
  or_dead (P := fun s => s.lock = none) n fun hn => lock_free hf hr hn n

/-- C96: every writer comes back for the next request. -/
theorem C96_writer_returns (hf : FairConn e) (hr : Reachable lv (e.st 0)) (w n : Nat) (hw : w < (e.st n).nWriter) :
    ∃ m, n ≤ m ∧ ((e.st m).crashed ≠ none ∨ (e.st m).writer w = .idle) :=
  or_dead (P := fun s => s.writer w = .idle) n fun hn => writer_idle hf hr hn w n hw

/-- C96: once the connection was up, `Write` returns, and the send of `WriteWithTimeout` and
`WriteAndWaitForReport` is over, for every caller. -/
theorem C96_write_returns (hf : FairConn e) (hr : Reachable lv (e.st 0)) (u n : Nat) (hw : 0 < (e.st n).nWriter)
    (hu : u < (e.st n).nReq) (hc : (e.st n).client u = .sending) :
    ∃ m, n ≤ m ∧ ((e.st m).crashed ≠ none ∨
      (e.st m).client u = if ((e.st n).req u).kind = .write then .done else .handed) := by
  refine or_dead (P := fun s => s.client u = _) n fun hn => ?_
  obtain ⟨m, h1, h2⟩ := sending_ends hf hr hn u n hw hu hc
  refine ⟨m, h1, h2.trans ?_⟩
  cases hk : ((e.st n).req u).kind <;> simp [Req.hasChan, hk]

/-- C96: a request with a timeout that was handed over is closed, whatever the stick and the network do. -/
theorem C96_timeout_fires (hf : FairConn e) (hr : Reachable lv (e.st 0)) (u n : Nat) (hu : u < (e.st n).nReq)
    (ht : ((e.st n).req u).timeout = true) (hc : (e.st n).client u ≠ .sending) :
    ∃ m, n ≤ m ∧ ((e.st m).crashed ≠ none ∨ ∀ k, m ≤ k → (e.st k).field u = false ∧
      (((e.st n).req u).kind ≠ .write → (e.st k).closed u = true)) := by
  have := or_dead (P := fun s => u < s.nReq ∧ s.req u = (e.st n).req u ∧ s.field u = false) n fun hn => by
    obtain ⟨m, h1, h2⟩ := request_closed hf hr hn u n hu ht hc
    exact ⟨m, h1, (exec_req n hu m h1).1, (exec_req n hu m h1).2, h2⟩
  obtain ⟨m, hm, h1 | ⟨h1, h2, h3⟩⟩ := this
  · exact ⟨m, hm, .inl h1⟩
  · refine ⟨m, hm, .inr fun k hk => ?_⟩
    obtain ⟨g1, g2⟩ := exec_req m h1 k hk
    have hfk := exec_field m h1 h3 k hk
    refine ⟨hfk, fun hkind => ?_⟩
    rcases (chan (exec_reach hr k)).hasChan u g1 (by
      rw [g2, h2]; cases hx : ((e.st n).req u).kind <;> simp_all [Req.hasChan]) with h | h
    · rw [hfk] at h; cases h
    · exact h

/-- C96, the whole way of a request with a timeout: once the connection was up, its caller is released. (Missing:
the caller that reads the channel field only after the request was closed, `nilChan`; it waits for ever, see
`C96_violated_late_caller`.) -/
theorem C96_every_request_ends_partial (hf : FairConn e) (hr : Reachable lv (e.st 0)) (u n : Nat)
    (hw : 0 < (e.st n).nWriter) (hu : u < (e.st n).nReq) (ht : ((e.st n).req u).timeout = true) :
    ∃ m, n ≤ m ∧ ((e.st m).crashed ≠ none ∨ (e.st m).client u = .done ∨ (e.st m).client u = .nilChan) := by
  refine or_dead (P := fun s => s.client u = .done ∨ s.client u = .nilChan) n fun hn => ?_
  have past : ∀ k, n ≤ k → Past ((e.st k).client u) → ∃ m, n ≤ m ∧ ((e.st m).client u = .done ∨ (e.st m).client u = .nilChan) := by
    intro k hk hp
    obtain ⟨q1, q2⟩ := exec_req n hu k hk
    obtain ⟨m, h1, h2⟩ := past_ends hf hr hn u k q1 (by rw [q2]; exact ht) hp
    exact ⟨m, by omega, .inl h2⟩
  have handed : ∀ k, n ≤ k → (e.st k).client u = .handed →
      ∃ m, n ≤ m ∧ ((e.st m).client u = .done ∨ (e.st m).client u = .nilChan) := by
    intro k hk hc
    obtain ⟨m, h1, h2 | h2⟩ := handed_ends hf hn u k (exec_req n hu k hk).1 hc
    · exact past m (by omega) (.inl h2)
    · exact ⟨m, by omega, .inr h2⟩
  cases hc : (e.st n).client u with
  | done => exact ⟨n, Nat.le_refl _, .inl hc⟩
  | nilChan => exact ⟨n, Nat.le_refl _, .inr hc⟩
  | has => exact past n (Nat.le_refl _) (.inl hc)
  | received => exact past n (Nat.le_refl _) (.inr (.inl hc))
  | handed => exact handed n (Nat.le_refl _) hc
  | sending =>
    obtain ⟨m, h1, h2⟩ := sending_ends hf hr hn u n hw hu hc
    split at h2
    · exact handed m h1 h2
    · exact ⟨m, h1, .inl h2⟩

/-- A request times out and its caller learns it. -/
def exReleased : List Label := exTimedOut ++ [.client 0 .seeClosed]

/-- A run that ends at rest, continued by nothing, is a fair execution. -/
theorem fair_of_run {ls : List Label} {α : Type} [DecidableEq α] {f : St → α} {a : α}
    (h : (run .perIteration init ls).map (fun s => (restB s, f s)) = some (true, a)) :
    ∃ e : Exec (step .perIteration), FairConn e ∧ e.st 0 = init ∧ (∀ n t, run .perIteration init (ls.take n) = some t → e.st n = t) ∧
      ∀ n, ls.length ≤ n → f (e.st n) = a := by
  cases hr : run .perIteration init ls with
  | none => rw [hr] at h; cases h
  | some s =>
    rw [hr] at h
    simp only [Option.map_some, Option.some.injEq, Prod.mk.injEq] at h
    refine ⟨execOf .perIteration ls s hr, quiet_fair hr (quiet_of_restB ⟨_, hr⟩ h.1), execOf_start hr, fun n t ht => ?_,
      fun n hn => by rw [execOf_end hr n hn]; exact h.2⟩
    simp [execOf, ht]

/-- Fair executions with a request that has a timeout exist; here nothing ever comes from the stick. -/
example : ∃ e : Exec (step .perIteration), FairConn e ∧ Reachable .perIteration (e.st 0) ∧
    0 < (e.st 2).nWriter ∧ 0 < (e.st 2).nReq ∧ ((e.st 2).req 0).timeout = true ∧ (e.st 2).client 0 = .sending ∧
    (∀ n, (e.st n).crashed = none) := by
  obtain ⟨e, h1, h2, h3, h4⟩ := fair_of_run (ls := exReleased) (f := fun s => s.crashed) (a := none) (by decide +kernel)
  refine ⟨e, h1, by rw [h2]; exact ⟨[], rfl⟩, ?_⟩
  have hv : (run .perIteration init (exReleased.take 2)).map
      (fun s => (s.nWriter, s.nReq, (s.req 0).timeout, s.client 0)) = some (1, 1, true, .sending) := by decide +kernel
  cases hy : run .perIteration init (exReleased.take 2) with
  | none => rw [hy] at hv; cases hv
  | some t =>
    rw [hy] at hv
    simp only [Option.map_some, Option.some.injEq, Prod.mk.injEq] at hv
    rw [h3 2 t hy]
    exact ⟨by omega, by omega, hv.2.2.1, hv.2.2.2, alive_before exReleased.length h4⟩

/-- C96 is false for the caller that is held up between the send and its next line: there is a fair execution,
without any crash and with a connection, in which a caller with a timeout waits for ever. -/
theorem C96_violated_late_caller : ∃ e : Exec (step .perIteration), FairConn e ∧ e.st 0 = init ∧ ∃ n, ∀ m, n ≤ m →
    0 < (e.st m).nWriter ∧ ((e.st m).req 0).timeout = true ∧ (e.st m).crashed = none ∧ (e.st m).client 0 = .nilChan := by
  obtain ⟨e, h1, h2, -, h4⟩ := fair_of_run (ls := exLateCaller)
    (f := fun s => (s.nWriter, (s.req 0).timeout, s.crashed, s.client 0)) (a := (1, true, none, .nilChan)) (by decide +kernel)
  refine ⟨e, h1, h2, exLateCaller.length, fun m hm => ?_⟩
  have := h4 m hm
  simp only [Prod.mk.injEq] at this
  exact ⟨by omega, this.2⟩

/-- C96 needs the connection: while there has been none, `Write` does not return, although nobody is passed
over; the timeout of a request starts only when a writer has taken it. -/
theorem C96_violated_no_connection : ∃ e : Exec (step .perIteration), FairConn e ∧ e.st 0 = init ∧ ∃ n, ∀ m, n ≤ m →
    ((e.st m).req 0).timeout = true ∧ (e.st m).crashed = none ∧ (e.st m).client 0 = .sending := by
  obtain ⟨e, h1, h2, -, h4⟩ := fair_of_run (ls := [.connect false, .submit xReq .waitReport true 0x03])
    (f := fun s => ((s.req 0).timeout, s.crashed, s.client 0)) (a := (true, none, .sending)) (by decide +kernel)
  refine ⟨e, h1, h2, 2, fun m hm => ?_⟩
  have := h4 m hm
  simpa using this

end Verif.Props
