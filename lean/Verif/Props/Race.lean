import Verif.Spec.Race
import Verif.Lemmas.ConnWire
import Verif.Lemmas.ConnRange
import Verif.Lemmas.ConnRuns

/-
C119: data races between the goroutines of a connection.
-/

set_option linter.unusedSimpArgs false
set_option maxHeartbeats 4000000

namespace Verif.Props

open Verif.Go Verif.Model Verif.Model.Conn Verif.Lemmas Verif.Lemmas.Conn Verif.Spec.Race

/-! ### The table of accesses is complete -/

/-- While the reader waits for data the port is open. -/
theorem read_up {lv : LoopVars} {s : St} (h : Reachable lv s) : s.reader ≠ .down → s.port = .up :=
  reach_induct (P := fun s => s.reader ≠ .down → s.port = .up) (by simp [init])
    (fun s l s' _ hp hs => by
      conn_step hs
      all_goals first
        | exact hp
        | grind [ReaderAt.forget]) s h

/-- C119: a step changes only the variables that are listed as written by its goroutine. -/
theorem C119_writes_sound {lv : LoopVars} {s s' : St} {l : Label} {v : Var} (hs : Reachable lv s)
    (h : step lv s l = some s') (hw : writes s (threadOf s l) v = false) : Same s s' v := by
  have hp := read_up hs
  conn_step h
  all_goals (cases v <;> grind [Same, writes, threadOf, upd, closeWrites])

theorem upd_comm {α : Type} (f : Nat → α) {i j : Nat} (a b : α) (h : i ≠ j) : upd (upd f i a) j b = upd (upd f j b) i a := by
  funext k; grind [upd]


/-- C119: a variable that is listed neither as read nor as written by a goroutine has no influence on its step: with
another value in it the same step is possible and does the same. -/
theorem C119_reads_sound {lv : LoopVars} {s s' t : St} {l : Label} {v : Var} (h : step lv s l = some s')
    (hr : reads s (threadOf s l) v = false) (hw : writes s (threadOf s l) v = false) (ha : AgreeOff v s t) :
    ∃ t', step lv t l = some t' ∧ AgreeOff v s' t' := by
  rw [ha]
  cases v with
  | last =>
    simp only
    generalize t.lastCommand = x
    clear ha
    conn_step h
    all_goals (simp_all [step, submit, clientStep, takeStep, writerStep, resultTimeoutStep, timerStep, resendStep,
          connectStep, readerStep, closeStep, St.crash, reads, writes, threadOf, AgreeOff, closeWrites])
    all_goals (
      rw [if_neg (by grind)]
      simp)
  | port =>
    simp only
    generalize t.port = x
    clear ha
    conn_step h
    all_goals (simp_all [step, submit, clientStep, takeStep, writerStep, resultTimeoutStep, timerStep, resendStep,
          connectStep, readerStep, closeStep, St.crash, reads, writes, threadOf, AgreeOff, closeWrites])
    all_goals (
      rw [if_neg (by grind)]
      simp)
  | table =>
    simp only
    generalize t.inFlight = x
    generalize t.mapBusy = y
    clear ha
    conn_step h
    all_goals (simp_all [step, submit, clientStep, takeStep, writerStep, resultTimeoutStep, timerStep, resendStep,
          connectStep, readerStep, closeStep, St.crash, reads, writes, threadOf, AgreeOff, closeWrites])
    all_goals (
      rw [if_neg (by grind)]
      simp)
  | chan v =>
    simp only
    generalize t.field v = x
    clear ha
    conn_step h
    all_goals (simp_all [step, submit, clientStep, takeStep, writerStep, resultTimeoutStep, timerStep, resendStep,
          connectStep, readerStep, closeStep, St.crash, reads, writes, threadOf, AgreeOff, closeWrites, upd_apply])
    all_goals first
      | (funext k; grind [upd])
      | grind [upd]
      | (split <;> first | (funext k; grind [upd]) | grind [upd])
      | skip
  | loopVar v =>
    simp only
    generalize t.loopVar v = x
    clear ha
    conn_step h
    all_goals (simp_all [step, submit, clientStep, takeStep, writerStep, resultTimeoutStep, timerStep, resendStep,
          connectStep, readerStep, closeStep, St.crash, reads, writes, threadOf, AgreeOff, closeWrites, upd_apply])
    all_goals first
      | (funext k; grind [upd])
      | grind [upd]
      | (split <;> first | (funext k; grind [upd]) | grind [upd])
      | skip

/-! ### The races -/

/-- C119, exactly: whatever the interleaving, a data race is one of the pairs of `Unordered`. In particular all accesses
under the lock of the connection are ordered: matching of frames, transmission, timeouts, negative acknowledgements.
(Partial: the claim is that there is no race at all, which is false, see below.) -/
theorem C119_only_races_partial {lv : LoopVars} {s : St} (h : Reachable lv s) {a b : Thread} {v : Var} (hr : Race s a b v) :
    Unordered lv s a b v := by
  have hl := lockInv h
  have hg := range h
  have hd : lv = .perIteration → ∀ i l, s.resend i ≠ .sleep (.loopVar l) := by
    rintro rfl; exact (spawnOf (u := 0) h).direct
  obtain ⟨hne, hw, hb⟩ := hr
  obtain ⟨l1, l2, l3, l4⟩ := hl
  have g4 := hg.timer
  have g8 := hg.reader
  clear hg h
  cases v with
  | table =>
    cases a <;> simp only [writes, Bool.false_eq_true] at hw
    all_goals cases b <;> simp only [reads, writes, Bool.false_eq_true, or_self, false_or, or_false] at hb
    case writer.reader w => exact .iterate (by grind [closeWrites, tReq, rReq, wCrit, tCrit, sCrit, fCrit]) (.inl ⟨w, by grind⟩)
    case timer.reader t => exact .iterate (by grind [closeWrites, tReq, rReq, wCrit, tCrit, sCrit, fCrit]) (.inr ⟨t, by grind⟩)
    all_goals (exfalso; grind [closeWrites, tReq, rReq, wCrit, tCrit, sCrit, fCrit])
  | last =>
    cases a <;> simp only [writes, Bool.false_eq_true] at hw
    all_goals cases b <;> simp only [reads, writes, Bool.false_eq_true, or_self, false_or, or_false] at hb
    case writer.writer w x =>
      have : (∃ u, s.writer w = .reset u) ∨ ∃ u, s.writer x = .reset u := by grind [closeWrites, tReq, rReq, wCrit, tCrit, sCrit, fCrit]
      rcases this with ⟨u, hu⟩ | ⟨u, hu⟩
      · exact .forget hu
      · exact .forgotten hu
    case writer.reader w =>
      have : ∃ u, s.writer w = .reset u := by grind [closeWrites, tReq, rReq, wCrit, tCrit, sCrit, fCrit]
      obtain ⟨u, hu⟩ := this
      exact .forget hu
  | port =>
    cases a <;> simp only [writes, Bool.false_eq_true] at hw
    all_goals cases b <;> simp only [reads, writes, Bool.false_eq_true, or_self, false_or, or_false] at hb
    case reader.writer w =>
      have : ∃ u, s.writer w = .write u := by grind
      obtain ⟨u, hu⟩ := this
      exact .reopen (of_decide_eq_true hw) hu
    all_goals (exfalso; grind)
  | chan u =>
    cases a <;> simp only [writes, Bool.false_eq_true] at hw
    all_goals cases b <;> simp only [reads, writes, Bool.false_eq_true, or_self, false_or, or_false] at hb
    case client.timer v t =>
      exfalso
      have : tReq (s.timer t) = some u := by grind [tReq]
      grind
    case client.reader v =>
      exfalso
      have : rReq s.reader = some u := by grind [rReq]
      grind
    case timer.client t v =>
      have hc : s.timer t = .closing u .clear := by grind [closeWrites]
      have := g4 t u (by rw [hc]; rfl)
      have hv : v = u := by grind
      subst hv
      exact .fetch (by grind) (.inr ⟨t, rfl, hc⟩)
    case reader.client v =>
      have hc : ∃ c d, s.reader = .scanClosing c u .clear ∨ s.reader = .frameClosing d u .clear := by
        cases hx : s.reader <;> rw [hx] at hw <;> simp [closeWrites] at hw
        · exact ⟨_, default, .inl (by rw [hw.1, hw.2])⟩
        · exact ⟨default, _, .inr (by rw [hw.1, hw.2])⟩
      have := g8 u (by grind [rReq])
      have hv : v = u := by grind
      subst hv
      exact .fetch (by grind) (.inl ⟨rfl, hc⟩)
    all_goals (exfalso; grind [closeWrites, tReq, rReq, wCrit, tCrit, sCrit, fCrit])
  | loopVar l =>
    cases a <;> simp only [writes, Bool.false_eq_true] at hw
    all_goals cases b <;> simp only [reads, writes, Bool.false_eq_true, or_self, false_or, or_false] at hb
    case reader.resend i =>
      have hb := of_decide_eq_true hb
      refine .capture ?_ hb
      cases hx : lv with
      | perLoop => rfl
      | perIteration => exact absurd hb (hd hx i l)
    all_goals (exfalso; grind)

/-- The variable holds something else; for the port, another one. -/
def changed (s s' : St) : Var → Bool
  | .table => decide (s'.inFlight ≠ s.inFlight ∨ s'.mapBusy ≠ s.mapBusy)
  | .last => decide (s'.lastCommand ≠ s.lastCommand)
  | .port => decide (s.port ≠ .up ∧ s'.port = .up)
  | .chan u => decide (s'.field u ≠ s.field u)
  | .loopVar l => decide (s'.loopVar l ≠ s.loopVar l)

/-- A race whose write is more than an entry in the table of accesses: the step of `a` changes the variable. -/
def RealRace (lv : LoopVars) (s : St) (a b : Thread) (v : Var) : Prop :=
  Race s a b v ∧ ∃ l s', threadOf s l = a ∧ step lv s l = some s' ∧ changed s s' v = true

/-- A run that ends in a race. -/
theorem race_of_run {lv : LoopVars} (ls : List Label) (a b : Thread) (v : Var) (l : Label)
    (h : (run lv init ls).map (fun s => decide (a ≠ b) && writes s a v && (reads s b v || writes s b v) && decide (threadOf s l = a) &&
      ((step lv s l).map (fun s' => changed s s' v)).getD false) = some true) :
    ∃ s, Reachable lv s ∧ RealRace lv s a b v := by
  cases hr : run lv init ls with
  | none => rw [hr] at h; cases h
  | some s =>
    rw [hr] at h
    simp only [Option.map_some, Option.some.injEq, Bool.and_eq_true, Bool.or_eq_true, decide_eq_true_eq] at h
    cases hs : step lv s l with
    | none => rw [hs] at h; exact absurd h.2 (by simp)
    | some s' =>
      rw [hs] at h
      exact ⟨s, ⟨ls, hr⟩, ⟨h.1.1.1.1, h.1.1.1.2, h.1.1.2⟩, l, s', h.1.2, hs, h.2⟩

/-- An acknowledgement arrives; the loop over the table is on its way. -/
def rScan1 : List Label := [.reader (.read ⟨[0x06], true, 0⟩), .reader .go, .reader .go]

/-- C119, violated on `inFlight`: a command is entered (154) while the reader goes through the table (214). -/
theorem C119_violated_table (lv : LoopVars) : ∃ s, Reachable lv s ∧ RealRace lv s (.writer 0) .reader .table := by
  cases lv <;> exact race_of_run ([.connect true, .submit xReq .write false 0] ++ rScan1 ++
    [.take 0 (.client 0), .writer 0, .writer 0]) _ _ _ (.writer 0) (by decide +kernel)

/-- C119, violated on `inFlight`: a request times out (349) while the reader goes through the table (214). -/
theorem C119_violated_table_timeout (lv : LoopVars) : ∃ s, Reachable lv s ∧ RealRace lv s (.timer 0) .reader .table := by
  cases lv <;> exact race_of_run ([.connect true, .submit xReq .withTimeout true 0] ++ xSend 0 0 ++ rScan1 ++ [.timer 0]) _ _ _
    (.timer 0) (by decide +kernel)

/-- C119, violated on `lastCommand`: the writer forgets its command (178) while the reader compares (216). -/
theorem C119_violated_last (lv : LoopVars) : ∃ s, Reachable lv s ∧ RealRace lv s (.writer 0) .reader .last := by
  cases lv <;> exact race_of_run ([.connect true, .submit xReq .write false 0] ++ xSend 0 0 ++ rScan1 ++
    [.reader (.pick 0), .reader .go, .resultTimeout 0, .writer 0]) _ _ _ (.writer 0) (by decide +kernel)

/-- C119, violated on `lastCommand`: the writer left from the time before a failure of the port forgets its command (178)
while the new writer notes its own (155). -/
theorem C119_violated_last_writers (lv : LoopVars) : ∃ s, Reachable lv s ∧ RealRace lv s (.writer 0) (.writer 1) .last := by
  cases lv <;> exact race_of_run ([.connect true, .submit xReq .write false 0] ++ xSend 0 0 ++
    [.reader .fail, .connect true, .submit xReq .write false 0, .take 1 (.client 1), .writer 1, .resultTimeout 0, .writer 0])
    _ _ _ (.writer 0) (by decide +kernel)

/-- C119, violated on `readWriteCloser`: the port is opened again (122) while a writer uses it (174). -/
theorem C119_violated_port (lv : LoopVars) : ∃ s, Reachable lv s ∧ RealRace lv s .reader (.writer 0) .port := by
  cases lv <;> exact race_of_run ([.connect true, .submit xReq .write false 0, .take 0 (.client 0)] ++
    List.replicate 7 (.writer 0) ++ [.reader .fail]) _ _ _ (.connect true) (by decide +kernel)

/-- C119, violated on `returnChan`: the timeout worker closes the channel (57) while the caller fetches it (90). -/
theorem C119_violated_channel (lv : LoopVars) : ∃ s, Reachable lv s ∧ RealRace lv s (.timer 0) (.client 0) (.chan 0) := by
  cases lv <;> exact race_of_run ([.connect true, .submit xReq .withTimeout true 0] ++ xSend 0 0 ++
    List.replicate 5 (.timer 0)) _ _ _ (.timer 0) (by decide +kernel)

/-- C119, violated on the loop variable (before Go 1.22): a resend goroutine reads it (232) while the loop goes on (214). -/
theorem C119_violated_loop : ∃ s, Reachable .perLoop s ∧ RealRace .perLoop s .reader (.resend 0) (.loopVar 0) :=
  race_of_run ([.connect true, .submit xReq .write false 0, .submit xReq .write false 0] ++ xSend 0 1 ++ xGiveUp 0 ++ xSend 0 0 ++
    [.reader (.read ⟨[0x18], true, 0⟩), .reader .go, .reader .go, .reader (.pick 0), .reader .go, .reader .go,
      .reader (.sendTo 0), .reader .go, .reader .go, .reader .go]) _ _ _ (.reader (.pick 1)) (by decide +kernel)

/-- With loop variables per iteration that race is gone. -/
theorem C119_loop_variables {s : St} (h : Reachable .perIteration s) {a b : Thread} {l : Nat} : ¬ Race s a b (.loopVar l) := by
  intro hr
  cases C119_only_races_partial h hr with
  | capture h1 h2 => cases h1

/-- As long as no caller is between handing over its package and fetching the channel, channels do not race: they are
closed and used one after the other, whoever closes them. -/
theorem C119_channels_partial {lv : LoopVars} {s : St} (h : Reachable lv s) {a b : Thread} {u : Nat}
    (hc : s.client u ≠ .handed) : ¬ Race s a b (.chan u) := by
  intro hr
  cases C119_only_races_partial h hr with
  | fetch h1 h2 => exact hc h1

/-- As long as the reader has not lost the port, the variable that holds it does not race. -/
theorem C119_port_partial {lv : LoopVars} {s : St} (h : Reachable lv s) {a b : Thread} (hd : s.reader ≠ .down) :
    ¬ Race s a b .port := by
  intro hr
  cases C119_only_races_partial h hr with
  | reopen h1 h2 => exact hd h1

/-- The hypotheses of the soundness theorems are met by a step that matters: the writer notes its command. -/
example : ∃ s s', Reachable .perIteration s ∧ step .perIteration s (.writer 0) = some s' ∧
    writes s (threadOf s (.writer 0)) .last = true ∧ writes s (threadOf s (.writer 0)) .table = false ∧
    reads s (threadOf s (.writer 0)) .table = false ∧ s.inFlight = [0] ∧ s'.inFlight = [0] ∧ s'.lastCommand = some 0 := by
  have h : (run .perIteration init ([.connect true, .submit xReq .write false 0, .take 0 (.client 0)] ++
      List.replicate 4 (.writer 0))).map (fun s => (step .perIteration s (.writer 0)).map fun s' =>
        writes s (threadOf s (.writer 0)) .last && !writes s (threadOf s (.writer 0)) .table &&
        !reads s (threadOf s (.writer 0)) .table && s.inFlight == [0] && s'.inFlight == [0] && s'.lastCommand == some 0) =
      some (some true) := by decide +kernel
  cases hr : run .perIteration init ([.connect true, .submit xReq .write false 0, .take 0 (.client 0)] ++
      List.replicate 4 (.writer 0)) with
  | none => rw [hr] at h; cases h
  | some s =>
    rw [hr] at h
    simp only [Option.map_some, Option.some.injEq] at h
    cases hs : step .perIteration s (.writer 0) with
    | none => rw [hs] at h; cases h
    | some s' =>
      rw [hs] at h
      simp only [Option.map_some, Option.some.injEq, Bool.and_eq_true, Bool.not_eq_true', beq_iff_eq] at h
      obtain ⟨⟨⟨⟨⟨h1, h2⟩, h3⟩, h4⟩, h5⟩, h6⟩ := h
      exact ⟨s, s', ⟨_, hr⟩, hs, h1, h2, h3, h4, h5, h6⟩

end Verif.Props
