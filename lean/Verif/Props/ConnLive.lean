import Verif.Lemmas.ConnRelease
import Verif.Lemmas.ConnRuns

/-
C35, C39, C41, C67, C69: timeouts, the in-flight table, release of callers, the lock, in every
interleaving of callers, writers, reader, timeout workers and resend goroutines.
-/

set_option linter.unusedSimpArgs false

namespace Verif.Props

open Verif.Go Verif.Model Verif.Model.Conn Verif.Spec Verif.Lemmas Verif.Lemmas.Conn

/-- The state reached by a concrete run and what a computed view of it is. -/
theorem reach_view {α : Type} {lv : LoopVars} {ls : List Label} {f : St → α} {a : α}
    (h : (run lv init ls).map f = some a) : ∃ s, Reachable lv s ∧ f s = a := by
  cases hr : run lv init ls with
  | none => rw [hr] at h; cases h
  | some s => rw [hr] at h; exact ⟨s, ⟨_, hr⟩, by simpa using h⟩

/-! ## C35 -/

/-- C35, first half: in every reachable state a request whose channel is still open is (1) still
offered by its caller, or (2) held by a writer that has not put it into the table yet, or (3) in the
table, or (4) being closed right now by the holder of the lock. -/
theorem C35_open_request_somewhere {lv : LoopVars} {s : St} (h : Reachable lv s) (u : Nat)
    (ho : s.field u = true) :
    s.client u = .sending ∨
    (∃ w, s.writer w = .lock u ∨ s.writer w = .clear u ∨ s.writer w = .insert u ∨
      s.writer w = .inserting u) ∨
    u ∈ s.inFlight ∨ (s.lock ≠ none ∧ ∃ a, closingOf s = some (u, a)) := by
  rcases (openInv h).place u ho with h1 | ⟨w, h1⟩ | h1 | ⟨a, h1⟩
  · exact .inl h1
  · exact .inr (.inl ⟨w, by cases hx : s.writer w <;> simp_all [wPre]⟩)
  · exact .inr (.inr (.inl h1))
  · refine .inr (.inr (.inr ⟨fun hl => ?_, a, h1⟩))
    simp [closingOf, hl] at h1

/-- C35, second half: an open request with a non-zero timeout that its caller has handed over always
has somebody who will end it: a writer that still is going to start its timeout worker, or a timeout
worker that waits or is closing it. -/
theorem C35_timeout_pending {lv : LoopVars} {s : St} (h : Reachable lv s) (u : Nat)
    (ho : s.field u = true) (ht : (s.req u).timeout = true) (hc : s.client u ≠ .sending) :
    (∃ w, wPreT (s.writer w) = some u) ∨
    (∃ t, s.timer t = .sleep u ∨ s.timer t = .look u ∨ s.timer t = .deleting u ∨
      ∃ a, s.timer t = .closing u a) := by
  rcases timedInv h u ho ht with h1 | h1 | ⟨t, h1⟩
  · exact absurd h1 hc
  · exact .inl h1
  · refine .inr ⟨t, ?_⟩
    cases hx : s.timer t <;> simp_all [tLive]

/-- C35, firing: when the timeout worker of a request gets the lock, it runs to its end, the request
is out of the table and its channel (if it has one) is closed; no other request changes and nothing is
delivered. -/
theorem C35_timeout_closes {lv : LoopVars} {s : St} (h : Reachable lv s) (hn : s.crashed = none)
    (hl : s.lock = none) (t u : Nat) (ht : s.timer t = .sleep u) :
    ∃ n s', run lv s (List.replicate n (.timer t)) = some s' ∧ s'.crashed = none ∧ s'.lock = none ∧
      u ∉ s'.inFlight ∧ s'.field u = false ∧ ((s.req u).hasChan = true → s'.closed u = true) ∧
      s'.got = s.got ∧
      (∀ v, v ≠ u → (v ∈ s'.inFlight ↔ v ∈ s.inFlight) ∧ s'.closed v = s.closed v ∧
        s'.field v = s.field v) := by
  obtain ⟨n, s', h1, h2, h3, h4, h5, h6, h7, h8, h9, h10⟩ := timer_fires h hn hl ht
  refine ⟨n, s', h1, h2, h3, h4, h5, fun hch => ?_, h7, h10⟩
  have hu : u < s.nReq := (range h).timer t u (by simp [ht, tReq])
  rcases (chan (reachable_run h h1)).hasChan u (by omega) (by rw [h8]; exact hch) with h11 | h11
  · rw [h5] at h11; cases h11
  · exact h11

/-- A request with a timeout is on the wire, its caller listens. -/
def exWaiting : List Label :=
  [.connect true, .submit xReq .waitReport true 0x03] ++ xSend 0 0 ++ [.client 0 .readField]

example : ∃ s, Reachable .perLoop s ∧ s.field 0 = true ∧ (s.req 0).timeout = true ∧
    s.client 0 = .has ∧ s.timer 0 = .sleep 0 ∧ s.lock = none ∧ s.crashed = none ∧
    0 ∈ s.inFlight := by
  obtain ⟨s, h, hv⟩ := reach_view (lv := .perLoop) (ls := exWaiting)
    (f := fun s => (s.field 0 && (s.req 0).timeout && decide (s.client 0 = .has) &&
      decide (s.timer 0 = .sleep 0) && decide (s.lock = none) && decide (s.crashed = none) &&
      decide (s.inFlight = [0])))
    (a := true) (by decide +kernel)
  simp only [Bool.and_eq_true, decide_eq_true_eq] at hv
  obtain ⟨⟨⟨⟨⟨⟨h1, h2⟩, h3⟩, h4⟩, h5⟩, h6⟩, h7⟩ := hv
  exact ⟨s, h, h1, h2, h3, h4, h5, h6, by simp [h7]⟩

/-! ## C39 -/

/-- C39, cleanup: a request whose channel was closed (by a reply, a NAK or its timeout) and that no
resend goroutine offered again is not in the table; the only exception is the moment when the reader,
holding the lock, has closed the channel and is about to delete the entry. (Missing for C39: the bound
on the table; see `C39_violated_unbounded`.) -/
theorem C39_completed_left_table_partial {lv : LoopVars} {s : St} (h : Reachable lv s) (u : Nat)
    (hc : s.closed u = true) (hr : .resend u ∉ s.hist) :
    u ∉ s.inFlight ∨ (s.lock = some .frame ∧ rEnding s.reader = some u) := by
  by_cases hu : u ∈ s.inFlight
  · have he := (onceInv (u := u) h hr).gone hc hu
    exact .inr ⟨(lockInv h).rf.1 (rEnding_crit he).1, he⟩
  · exact .inl hu

/-- C39: in particular whenever the lock is free. -/
theorem C39_completed_left_table_unlocked {lv : LoopVars} {s : St} (h : Reachable lv s) (u : Nat)
    (hl : s.lock = none) (hc : s.closed u = true) (hr : .resend u ∉ s.hist) : u ∉ s.inFlight := by
  rcases C39_completed_left_table_partial h u hc hr with h1 | ⟨h1, -⟩
  · exact h1
  · rw [hl] at h1; cases h1

/-- A request that timed out. -/
def exTimedOut : List Label := exWaiting ++ xGiveUp 0 ++ List.replicate 7 (.timer 0)

example : ∃ s, Reachable .perLoop s ∧ s.lock = none ∧ s.closed 0 = true ∧ .resend 0 ∉ s.hist := by
  obtain ⟨s, h, hv⟩ := reach_view (lv := .perLoop) (ls := exTimedOut)
    (f := fun s => (s.lock, s.closed 0, s.hist.contains (.resend 0)))
    (a := (none, true, false)) (by decide +kernel)
  simp only [Prod.mk.injEq] at hv
  exact ⟨s, h, hv.1, hv.2.1, by simpa using hv.2.2⟩

/-- The resend exception is real: after a CAN the caller's request times out, then the resend
goroutine puts the request back into the table, where it stays although its channel is closed and its
caller was released. -/
def exResendAfterClose : List Label :=
  exWaiting ++ (xRead [0x18] ++ xHit 0 0 ++
    [.reader .go, .reader .go, .reader .stop, .reader .go, .reader .go, .writer 0, .writer 0]) ++
  List.replicate 7 (.timer 0) ++ [.client 0 .seeClosed, .resend 0, .take 0 (.resend 0)] ++
  List.replicate 9 (.writer 0)

/-- C39 is false: the entry of a request whose caller is gone can come back into the table by a repetition. -/
theorem C39_violated_resend : ∃ s, Reachable .perIteration s ∧ s.lock = none ∧ s.closed 0 = true ∧
    s.client 0 = .done ∧ 0 ∈ s.inFlight := by
  obtain ⟨s, h, hv⟩ := reach_view (lv := .perIteration) (ls := exResendAfterClose)
    (f := fun s => (s.lock, s.closed 0, s.client 0, s.inFlight))
    (a := (none, true, .done, [0])) (by decide +kernel)
  simp only [Prod.mk.injEq] at hv
  exact ⟨s, h, hv.1, hv.2.1, hv.2.2.1, by simp [hv.2.2.2]⟩

/-- An idle connection with `n` entries in the table. -/
structure IdleWith (n : Nat) (s : St) : Prop where
  crashed : s.crashed = none
  lock : s.lock = none
  busy : s.mapBusy = false
  writer : s.writer 0 = .idle
  result : s.result 0 = .absent
  port : s.port = .up
  reader : s.reader = .read
  len : s.inFlight.length = n
  fresh : ∀ v ∈ s.inFlight, v < s.nReq

theorem idle_round {lv : LoopVars} {s : St} {n : Nat} (h : IdleWith n s) :
    ∃ s', run lv s ([.submit [0x02] .write false 0] ++ xSend 0 s.nReq ++ xGiveUp 0) = some s' ∧
      IdleWith (n + 1) s' := by
  obtain ⟨h1, h2, h3, h4, h5, h6, h7, h8, h9⟩ := h
  obtain ⟨pkg, hp⟩ : ∃ pkg, newSendPackage [0x02] 0 = .ok pkg := ⟨_, rfl⟩
  have hm : s.nReq ∉ s.inFlight := fun hm => Nat.lt_irrefl _ (h9 _ hm)
  refine ⟨_, by
    simp [xSend, xGiveUp, List.replicate, run, step, submit, hp, takeStep, writerStep,
      resultTimeoutStep, h1, h2, h3, h4, h5, h6, Req.hasChan]; rfl, ?_⟩
  constructor <;> simp [h1, h2, h3, h5, h6, h7, h8, insertKey, hm]
  intro v hv
  rcases hv with hv | hv
  · exact Nat.lt_succ_of_lt (h9 v hv)
  · omega

/-- C39's bound is false: fire-and-forget commands whose node never answers stay in the table for
ever; for every `n` an idle connection with `n` stale entries is reachable. -/
theorem C39_violated_unbounded (lv : LoopVars) (n : Nat) :
    ∃ s, Reachable lv s ∧ s.inFlight.length = n ∧ s.lock = none ∧ s.crashed = none ∧
      s.writer 0 = .idle ∧ s.reader = .read := by
  suffices hs : ∃ s, Reachable lv s ∧ IdleWith n s by
    obtain ⟨s, h, hi⟩ := hs
    exact ⟨s, h, hi.len, hi.lock, hi.crashed, hi.writer, hi.reader⟩
  induction n with
  | zero =>
    refine ⟨_, ⟨[.connect true], by simp [run, step, init, connectStep]; rfl⟩, ?_⟩
    constructor <;> simp [init]
  | succ n ih =>
    obtain ⟨s, h, hi⟩ := ih
    obtain ⟨s', h1, h2⟩ := idle_round (lv := lv) hi
    exact ⟨s', reachable_run h h1, h2⟩

/-! ## C41 -/

/-- C41 for callers that obtained their channel: from every reachable state in which the process runs,
a caller that got its channel (it listens, or has received a message) and whose request has a non-zero
timeout can still be released: some continuation ends with the caller done, or with the process dead.
(Missing: callers that read the channel field late; see `C41_violated`.) -/
theorem C41_released_partial {lv : LoopVars} {s : St} (h : Reachable lv s) (hn : s.crashed = none)
    (u : Nat) (hc : s.client u = .has ∨ s.client u = .received) (ht : (s.req u).timeout = true) :
    ∃ ls s', run lv s ls = some s' ∧ (s'.crashed ≠ none ∨ s'.client u = .done) := by
  have hu : u < s.nReq := by
    rcases hc with hc | hc
    · exact ((clientInv h).has u hc).2
    · exact ((clientInv h).received u hc).2.2
  exact release_any h hn hu (hc.elim .inl (fun h => .inr (.inl h))) ht

/-- A caller that has the channel is never left with an open channel nobody will close: either its
channel is closed (and the next receive returns), or the request is open and pending as in C35. -/
theorem C41_channel_live {lv : LoopVars} {s : St} (h : Reachable lv s) (u : Nat)
    (hc : s.client u = .has) (ht : (s.req u).timeout = true) :
    s.closed u = true ∨ (∃ w, wPreT (s.writer w) = some u) ∨ (∃ t, tLive (s.timer t) = some u) := by
  obtain ⟨h1, h2⟩ := (clientInv h).has u hc
  rcases (chan h).hasChan u h2 h1 with h3 | h3
  · rcases timedInv h u h3 ht with h4 | h4 | h4
    · rw [hc] at h4; cases h4
    · exact .inr (.inl h4)
    · exact .inr (.inr h4)
  · exact .inl h3

theorem nilChan_stays {lv : LoopVars} {ls : List Label} {s s' : St} {u : Nat} (hu : u < s.nReq)
    (h : run lv s ls = some s') (hc : s.client u = .nilChan) : s'.client u = .nilChan := by
  induction ls generalizing s with
  | nil => simp [run] at h; subst h; exact hc
  | cons l ls ih =>
    simp only [run] at h
    cases hs : step lv s l with
    | none => simp [hs] at h
    | some s1 =>
      simp [hs] at h
      have key : s1.client u = .nilChan ∧ u < s1.nReq := by
        clear h ih
        conn_step hs
        all_goals first
          | exact ⟨hc, hu⟩
          | grind [upd]
      exact ih key.2 h key.1

/-- The caller hands its request over and is descheduled; the request times out; then the caller reads
the channel field, which is nil. -/
def exLateCaller : List Label :=
  [.connect true, .submit xReq .waitReport true 0x03] ++ xSend 0 0 ++ xGiveUp 0 ++
  List.replicate 7 (.timer 0) ++ [.client 0 .readField]

/-- C41 is false: a reachable state (no crash) from which no continuation ever releases the caller. -/
theorem C41_violated : ∃ s, Reachable .perIteration s ∧ s.crashed = none ∧
    (s.req 0).timeout = true ∧ s.client 0 = .nilChan ∧
    ∀ ls s', run .perIteration s ls = some s' → s'.client 0 = .nilChan := by
  obtain ⟨s, h, hv⟩ := reach_view (lv := .perIteration) (ls := exLateCaller)
    (f := fun s => (s.crashed, (s.req 0).timeout, s.client 0, s.nReq))
    (a := (none, true, .nilChan, 1)) (by decide +kernel)
  simp only [Prod.mk.injEq] at hv
  obtain ⟨h1, h2, h3, h4⟩ := hv
  exact ⟨s, h, h1, h2, h3, fun ls s' hr => nilChan_stays (by omega) hr h3⟩

/-! ## C67 -/

/-- C67, the locked accesses are safe: a fatal concurrent map access can only happen at the head of
the reader's unlocked control-byte loop. (Missing: that loop; see `C67_violated`.) -/
theorem C67_map_access_partial {lv : LoopVars} {s s' : St} {l : Label} (h : Reachable lv s)
    (hs : step lv s l = some s') (hc : s'.crashed = some .mapRace) :
    ∃ c op, s.reader = .scanNext c ∧ l = .reader op := mapRace_scan h hs hc

/-- A command is in the table (it stays there, since nobody waits for an answer). The reader starts a scan for an ACK
while the writer is inserting the next command. -/
def exMapRace : List Label :=
  [.connect true, .submit xReq .write false 0, .submit xReq .write false 0] ++ xSend 0 0 ++ xGiveUp 0 ++
  [.take 0 (.client 1)] ++ List.replicate 3 (.writer 0) ++ xRead [0x06] ++ [.reader (.pick 0)]

/-- C67 is false: the process can die from a concurrent map access. -/
theorem C67_violated : ∃ s, Reachable .perIteration s ∧ s.crashed = some .mapRace := by
  obtain ⟨s, h, hv⟩ := reach_view (lv := .perIteration) (ls := exMapRace)
    (f := fun s => s.crashed) (a := some .mapRace) (by decide +kernel)
  exact ⟨s, h, hv⟩

/-! ## C69 -/

/-- The connection code never writes to a nil map. -/
theorem noNilMap {lv : LoopVars} {s : St} (h : Reachable lv s) : s.crashed ≠ some .nilMap := by
  refine reach_induct (P := fun s => s.crashed ≠ some .nilMap) (by simp [init]) ?_ s h
  intro s s' l _ hp hs
  conn_step hs
  all_goals conn_facts s
  all_goals first
    | assumption
    | grind [→ nsp_err, → iter_err, → match_err]

/-- C69: the connection's mutex never stays locked: in every reachable state of a running process in
which some goroutine holds the lock, steps of that goroutine alone lead to the lock being free, or to
the process dying from a bounds violation or a nil dereference (never from a channel or map error). -/
theorem C69_lock_released {lv : LoopVars} {s : St} (h : Reachable lv s) (hn : s.crashed = none)
    (o : Owner) (ho : s.lock = some o) :
    ∃ ls s', (∀ l ∈ ls, ownedBy o l = true) ∧ run lv s ls = some s' ∧
      (s'.lock = none ∨ s'.crashed = some .index ∨ s'.crashed = some .slice ∨
        s'.crashed = some .nilDeref) := by
  obtain ⟨ls, s', h1, h2, h3, hm⟩ := release h hn ho
  refine ⟨ls, s', h1, h2, ?_⟩
  rcases h3 with h3 | h3
  · obtain ⟨n1, n2⟩ := (chan (reachable_run h h2)).noCrash
    cases hc : s'.crashed with
    | none => exact absurd hc h3
    | some p => have hz := noNilMap (reachable_run h h2); cases p <;> simp_all
  · exact .inl h3

/-- C69: whoever waits for the lock gets it when it is free: a waiting writer, timeout worker or
reader has an enabled step. -/
theorem C69_lock_available {lv : LoopVars} {s : St} (hn : s.crashed = none) (hl : s.lock = none) :
    (∀ w u, s.writer w = .lock u → ∃ s', step lv s (.writer w) = some s') ∧
    (∀ t u, s.timer t = .sleep u → ∃ s', step lv s (.timer t) = some s') ∧
    (∀ c u, s.reader = .scanLock c u → ∃ s', step lv s (.reader .go) = some s') ∧
    (∀ b m, s.reader = .frameLock b m → ∃ s', step lv s (.reader .go) = some s') := by
  refine ⟨fun w u h => ?_, fun t u h => ?_, fun c u h => ?_, fun b m h => ?_⟩ <;>
    exact ⟨_, by simp [step, hn, writerStep, timerStep, readerStep, h, hl]; rfl⟩

example : ∃ s, Reachable .perLoop s ∧ s.crashed = none ∧ s.lock = some (.writer 0) := by
  obtain ⟨s, h, hv⟩ := reach_view (lv := .perLoop) (ls := [.connect true,
      .submit xReq .write false 0, .take 0 (.client 0), .writer 0])
    (f := fun s => (s.crashed, s.lock)) (a := (none, some (.writer 0))) (by decide +kernel)
  simp only [Prod.mk.injEq] at hv
  exact ⟨s, h, hv.1, hv.2⟩

end Verif.Props
