import Verif.Lemmas.ConnReaderLive
import Verif.Props.Reader
import Verif.Props.ConnLive

/-
C85: in every execution of the connection the reader hands on exactly what the bytes it has read call for.
-/

set_option linter.unusedSimpArgs false

namespace Verif.Props

open Verif.Go Verif.Model Verif.Model.Conn Verif.Spec Verif.Lemmas Verif.Lemmas.Conn

theorem expected_abs {ls : List Label} {as : List Act} {b : Slice} (h : absRun ls = .ok (as, b)) :
    expected (sessions ls) = .ok as := by
  obtain ⟨x, ss, h1, h2⟩ := sessions_abs ls
  rw [h1]
  rw [h2] at h
  unfold expected
  cases he : expected ss with
  | error p => rw [he] at h; cases h
  | ok as' =>
    rw [he] at h
    simp only [Except.bind] at h ⊢
    cases hf : feed ⟨[], []⟩ x with
    | error p => rw [hf] at h; cases h
    | ok q => rw [hf] at h; simp [Except.map] at h ⊢; exact h.1

theorem abs_expected {ls : List Label} {as : List Act} (h : expected (sessions ls) = .ok as) :
    ∃ b, absRun ls = .ok (as, b) := by
  obtain ⟨x, ss, h1, h2⟩ := sessions_abs ls
  rw [h1] at h
  rw [h2]
  unfold expected at h
  cases he : expected ss with
  | error p => rw [he] at h; cases h
  | ok as' =>
    rw [he] at h
    simp only [Except.bind] at h ⊢
    cases hf : feed ⟨[], []⟩ x with
    | error p => rw [hf] at h; cases h
    | ok q => rw [hf] at h; simp [Except.map] at h ⊢; exact h

/-- C85: whatever the callers, writers, timeouts and resends did meanwhile, and however their steps were interleaved
with the reader's: when the reader waits for bytes (or for the port), the frames it has matched, the reports it has
handed to the callback and the ACKs it has written are, in order, exactly those that the bytes of the sessions so far
call for. -/
theorem C85_reader_refines_bytes {lv : LoopVars} {ls : List Label} {s : St} (h : run lv init ls = some s)
    (hc : s.crashed = none) (hr : s.reader = .read ∨ s.reader = .down) :
    ∃ as, expected (sessions ls) = .ok as ∧ observed s = as.filterMap obsAct := by
  have hi := read_inv h hc
  obtain ⟨as, b, e1, e2, -⟩ := hi.rest (by rcases hr with hr | hr <;> rw [hr] <;> rfl)
  exact ⟨as, expected_abs e1, e2.symm⟩

/-- C85: and in between it has done a prefix of that: nothing is done twice, out of order or for bytes that were not
read. -/
theorem C85_reader_prefix {lv : LoopVars} {ls : List Label} {s : St} {all : List Act} (h : run lv init ls = some s)
    (hc : s.crashed = none) (he : expected (sessions ls) = .ok all) :
    observed s <+: all.filterMap obsAct := by
  obtain ⟨b, hb⟩ := abs_expected he
  have hi := read_inv h hc
  cases hr : rRest s.reader with
  | true =>
    obtain ⟨as, b', e1, e2, -⟩ := hi.rest hr
    rw [hb] at e1
    cases e1
    rw [e2]
    exact List.prefix_rfl
  | false =>
    obtain ⟨as, e1, e2⟩ := hi.busy hr
    rw [hb] at e1
    cases hd : drain s.buf with
    | error p => rw [hd] at e1; cases e1
    | ok q =>
      rw [hd] at e1
      simp [Except.map] at e1
      rw [e1.1, List.filterMap_append, e2]
      simp [List.append_assoc]

/-- C85: if the bytes call for a crash (the byte level reader panics on them), the reader cannot be back waiting for
bytes. -/
theorem C85_crash_not_passed {lv : LoopVars} {ls : List Label} {s : St} {p : Panic} (h : run lv init ls = some s)
    (hc : s.crashed = none) (he : expected (sessions ls) = .error p) : s.reader ≠ .read ∧ s.reader ≠ .down := by
  constructor <;> intro hr
  · obtain ⟨as, e, -⟩ := C85_reader_refines_bytes h hc (.inl hr)
    rw [he] at e; cases e
  · obtain ⟨as, e, -⟩ := C85_reader_refines_bytes h hc (.inr hr)
    rw [he] at e; cases e

theorem expected_counts : ∀ {ss : List (List Read)} {as : List Act}, expected ss = .ok as →
    as.countP Act.isAck = as.countP Act.isFrame
  | [], _, h => by cases h; rfl
  | x :: ss, as, h => by
    unfold expected at h
    cases he : expected ss with
    | error p => rw [he] at h; cases h
    | ok as' =>
      rw [he] at h
      simp only [Except.bind] at h
      cases hf : feed ⟨[], []⟩ x with
      | error p => rw [hf] at h; cases h
      | ok q =>
        rw [hf] at h
        cases h
        rw [List.countP_append, List.countP_append, expected_counts he, C08_ack_count _ _ _ _ hf]

/-- An ACK was written. -/
def isAckEv : Ev → Bool
  | .ack => true
  | _ => false

/-- A frame was matched. -/
def isFrameEv : Ev → Bool
  | .frame _ _ => true
  | _ => false

theorem count_obs (l : List Act) : ((l.filterMap obsAct).countP (· == .ack)) = l.countP Act.isAck ∧
    ((l.filterMap obsAct).countP (fun o => match o with | .frame _ _ => true | _ => false)) = l.countP Act.isFrame := by
  induction l with
  | nil => exact ⟨rfl, rfl⟩
  | cons a l ih =>
    cases a <;> simp [List.filterMap_cons, obsAct, List.countP_cons, Act.isAck, Act.isFrame, ih]

theorem count_ev (l : List Ev) : ((l.filterMap obsEv).countP (· == .ack)) = l.countP isAckEv ∧
    ((l.filterMap obsEv).countP (fun o => match o with | .frame _ _ => true | _ => false)) = l.countP isFrameEv := by
  induction l with
  | nil => exact ⟨rfl, rfl⟩
  | cons a l ih =>
    cases a <;> simp [List.filterMap_cons, obsEv, List.countP_cons, isAckEv, isFrameEv, ih]

/-- C85: in particular, whenever the reader waits for bytes, as many ACKs have been written as frames were matched:
each frame is acknowledged once, in every execution. -/
theorem C85_acks_frames {lv : LoopVars} {s : St} (h : Reachable lv s)
    (hc : s.crashed = none) (hr : s.reader = .read ∨ s.reader = .down) :
    s.hist.countP isAckEv = s.hist.countP isFrameEv := by
  obtain ⟨ls, h⟩ := h
  obtain ⟨as, e1, e2⟩ := C85_reader_refines_bytes h hc hr
  have h1 := count_obs as
  have h2 := count_ev s.hist.reverse
  rw [← e2] at h1
  unfold observed at h1
  rw [h1.1, h1.2, List.countP_reverse, List.countP_reverse] at h2
  rw [← h2.1, ← h2.2]
  exact expected_counts e1

/-- C85: and the reader is never stuck: from every state without a crash there is a continuation, by steps of the
lock's holder and the reader alone, in which the reader is back waiting for bytes (or the process crashes). -/
theorem C85_reader_returns {lv : LoopVars} {s : St} (h : Reachable lv s) (hc : s.crashed = none) :
    ∃ ls s', (∀ l ∈ ls, (∃ op, l = .reader op) ∨ ∃ o, s.lock = some o ∧ ownedBy o l = true) ∧
      run lv s ls = some s' ∧ (s'.crashed ≠ none ∨ s'.reader = .read ∨ s'.reader = .down) := by
  have rest : ∀ {r : ReaderAt}, rRest r = true → r = .read ∨ r = .down := by
    intro r hr; cases r <;> simp_all [rRest]
  by_cases hl : s.lock = none ∨ s.lock = some .scan ∨ s.lock = some .frame
  · obtain ⟨ls, s', a, b, c⟩ := reader_returns h hc hl
    exact ⟨ls, s', fun l hl => .inl (a l hl), b, c.imp_right rest⟩
  · cases ho : s.lock with
    | none => exact absurd (.inl ho) hl
    | some o =>
      obtain ⟨l1, s1, a1, b1, c1, -⟩ := release h hc ho
      by_cases hc1 : s1.crashed = none
      · obtain ⟨l2, s2, a2, b2, c2⟩ := reader_returns (reachable_run h b1) hc1 (.inl (c1.resolve_left (fun h => h hc1)))
        refine ⟨l1 ++ l2, s2, fun l hl => ?_, ?_, c2.imp_right rest⟩
        · rcases List.mem_append.1 hl with hl | hl
          · exact .inr ⟨o, rfl, a1 l hl⟩
          · exact .inl (a2 l hl)
        · rw [run_append, b1]; exact b2
      · exact ⟨l1, s1, fun l hl => .inr ⟨o, rfl, a1 l hl⟩, b1, .inl hc1⟩

/-- A report and an answer arrive in three reads, the second session's frame while a writer is at work. -/
def exReading : List Label :=
  let frame : List Label := [.reader .go, .reader .go, .reader .go, .reader .stop, .reader .go]
  [.connect true, .submit xReq .write false 0, .reader (.read ⟨exReport.take 4, true, 2⟩), .reader .go,
    .take 0 (.client 0), .reader (.read ⟨exReport.drop 4, false, 5⟩)] ++ frame ++ [.writer 0] ++
  [.reader .go, .reader .go, .writer 0, .reader .go, .reader .go, .reader .fail] ++ List.replicate 5 (.writer 0) ++
  [.connect true, .reader (.read ⟨exFrame, false, 0⟩), .reader .go]

example : ∃ s, run .perLoop init exReading = some s ∧ s.crashed = none ∧ s.reader = .exec ∧
    (observed s).length = 3 := by
  have h : (run .perLoop init exReading).map (fun s => (s.crashed, s.reader, (observed s).length)) =
      some (none, .exec, 3) := by decide +kernel
  cases hr : run .perLoop init exReading with
  | none => rw [hr] at h; cases h
  | some s => rw [hr] at h; simp at h; exact ⟨s, rfl, h.1, h.2.1, h.2.2⟩

/-- The writer gives the lock back; the frame is matched with its request, which it does not answer. -/
def exAnswer : List Label :=
  [.reader .go, .writer 0, .writer 0, .reader .go, .reader (.pick 0), .reader .go, .reader .stop, .reader .go,
    .reader .go, .reader .go, .reader .go]

/-- And then the answer is matched and acknowledged, and the reader waits again. -/
example : ∃ s, run .perLoop init (exReading ++ exAnswer) = some s ∧ s.crashed = none ∧ s.reader = .read ∧ s.hist.countP isAckEv = 2 := by
  have h : (run .perLoop init (exReading ++ exAnswer)).map (fun s => (s.crashed, s.reader, s.hist.countP isAckEv)) =
      some (none, .read, 2) := by decide +kernel
  cases hr : run .perLoop init (exReading ++ exAnswer) with
  | none => rw [hr] at h; cases h
  | some s => rw [hr] at h; simp at h; exact ⟨s, rfl, h.1, h.2.1, h.2.2⟩

/-- What was expected of those reads. -/
example : ∃ as, expected (sessions exReading) = .ok as ∧ (as.filterMap obsAct).length = 5 :=
  ⟨_, rfl, by decide +kernel⟩

/-- Bytes on which the byte level reader panics. -/
example : ∃ p, expected (sessions [.connect true, .reader (.read ⟨[0x01, 0x01, 0xFE], true, 5⟩)]) =
    .error p := ⟨_, rfl⟩

end Verif.Props
