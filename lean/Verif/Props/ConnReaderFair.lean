import Verif.Spec.ConnReaderFair
import Verif.Lemmas.ConnReaderFair
import Verif.Props.ConnFair
import Verif.Props.ConnReader

/-
C99: what was read is bound to be processed. C85 says what has been done whenever the reader waits for bytes; here:
in every infinite execution in which no goroutine is passed over for ever, it does come back to waiting for bytes.
-/

set_option linter.unusedSimpArgs false

namespace Verif.Props

open Verif.Go Verif.Model Verif.Model.Conn Verif.Spec Verif.Lemmas Verif.Lemmas.Conn

variable {lv : LoopVars} {e : Exec (step lv)}

theorem before_succ (n : Nat) : before e (n + 1) = before e n ++ (e.lab n).toList := by
  unfold before
  rw [List.range_succ, List.filterMap_append]
  cases h : e.lab n <;> simp [h]

theorem exec_run (n : Nat) : run lv (e.st 0) (before e n) = some (e.st n) := by
  induction n with
  | zero => rfl
  | succ n ih =>
    rw [before_succ, run_append, ih]
    have := e.next n
    cases hl : e.lab n with
    | none => rw [hl] at this; simp [run, this]
    | some l => rw [hl] at this; simp only [Option.toList, Option.bind_some, run]; rw [this]; rfl

/-- C99: when the callers and the repetitions pause, the reader comes back to waiting for bytes (or for the port),
whatever the port delivers, the timeouts remove and the callers do with their answers meanwhile. -/
theorem C99_reader_returns (hf : FairConn e) (hr : Reachable lv (e.st 0)) (n : Nat) (ht : NoneTaken e n) :
    ∃ m, n ≤ m ∧ ((e.st m).crashed ≠ none ∨ (e.st m).reader = .read ∨ (e.st m).reader = .down) := by
  refine or_dead (P := fun s => s.reader = .read ∨ s.reader = .down) n fun hn => ?_
  obtain ⟨m, h1, h2⟩ := reader_rests hf hr hn n ht
  refine ⟨m, h1, ?_⟩
  cases hx : (e.st m).reader <;> rw [hx] at h2 <;> simp_all [rRest]

/-- C99: then everything that was read before that moment has been processed: each frame was matched and
acknowledged, each report handed to the callback, in the order of the bytes. -/
theorem C99_everything_processed (hf : FairConn e) (h0 : e.st 0 = init) (n : Nat) (ht : NoneTaken e n) :
    ∃ m, n ≤ m ∧ ((e.st m).crashed ≠ none ∨ Processed (before e m) (e.st m)) := by
  obtain ⟨m, h1, h2⟩ := C99_reader_returns hf (h0 ▸ ⟨[], rfl⟩) n ht
  refine ⟨m, h1, ?_⟩
  by_cases hc : (e.st m).crashed = none
  · have hrun := exec_run (e := e) m
    rw [h0] at hrun
    exact .inr (C85_reader_refines_bytes hrun hc (h2.resolve_left fun h => h hc))
  · exact .inl hc

theorem prefix_before {n m : Nat} (h : n ≤ m) : before e n <+: before e m := by
  induction h with
  | refl => exact List.prefix_rfl
  | step h ih => exact ih.trans (by rw [before_succ]; exact List.prefix_append _ _)

/-- More steps only add to what the reads call for. -/
theorem sessions_snoc (ls : List Label) (l : Label) {bs : List Act} (h : expected (sessions (ls ++ [l])) = .ok bs) :
    ∃ as, expected (sessions ls) = .ok as ∧ as <+: bs := by
  have he : sessions (ls ++ [l]) = sessionStep (sessions ls) l := by simp [sessions]
  rw [he] at h
  unfold sessionStep at h
  split at h
  · unfold expected at h
    cases hx : expected (sessions ls) with
    | error p => rw [hx] at h; cases h
    | ok as =>
      rw [hx] at h
      simp [Except.bind, feed, Except.map] at h
      exact ⟨as, rfl, by rw [h]; exact List.prefix_rfl⟩
  · next s ss r hss =>
    rw [hss]
    unfold expected at h ⊢
    cases hx : expected ss with
    | error p => rw [hx] at h; cases h
    | ok as =>
      rw [hx] at h
      simp only [Except.bind] at h ⊢
      rw [feed_snoc] at h
      cases hy : feed ⟨[], []⟩ s with
      | error p => rw [hy] at h; cases h
      | ok q =>
        rw [hy] at h
        refine ⟨_, rfl, ?_⟩
        simp only [Except.bind] at h
        cases hz : drain (appendRead q.2 r) with
        | error p => rw [hz] at h; cases h
        | ok z =>
          rw [hz] at h
          simp only [Except.map, Except.ok.injEq] at h
          rw [← h, ← List.append_assoc]
          exact List.prefix_append _ _
  · exact ⟨bs, h, List.prefix_rfl⟩

theorem sessions_mono (ls ls' : List Label) {bs : List Act} (h : expected (sessions (ls ++ ls')) = .ok bs) :
    ∃ as, expected (sessions ls) = .ok as ∧ as <+: bs := by
  induction ls' generalizing ls with
  | nil => exact ⟨bs, by simpa using h, List.prefix_rfl⟩
  | cons l ls' ih =>
    obtain ⟨cs, h1, h2⟩ := ih (ls ++ [l]) (by simpa using h)
    obtain ⟨as, h3, h4⟩ := sessions_snoc ls l h1
    exact ⟨as, h3, h4.trans h2⟩

/-- C99: in particular what the bytes read by moment `n` call for is done, in full and in order, after it. -/
theorem C99_read_is_processed (hf : FairConn e) (h0 : e.st 0 = init) (n : Nat) (ht : NoneTaken e n) {as : List Act}
    (ha : expected (sessions (before e n)) = .ok as) :
    ∃ m, n ≤ m ∧ ((e.st m).crashed ≠ none ∨ as.filterMap obsAct <+: observed (e.st m)) := by
  obtain ⟨m, h1, h2⟩ := C99_everything_processed hf h0 n ht
  refine ⟨m, h1, h2.imp_right ?_⟩
  rintro ⟨bs, h3, h4⟩
  obtain ⟨ls', hp⟩ := prefix_before (e := e) h1
  rw [← hp] at h3
  obtain ⟨as', h5, h6⟩ := sessions_mono _ _ h3
  rw [ha] at h5
  cases h5
  rw [h4]
  exact h6.filterMap _

/-- C99: and bytes on which the byte level reader panics are bound to end the process. -/
theorem C99_bad_bytes_crash (hf : FairConn e) (h0 : e.st 0 = init) (n : Nat) (ht : NoneTaken e n) {p : Panic}
    (ha : expected (sessions (before e n)) = .error p) : ∃ m, n ≤ m ∧ (e.st m).crashed ≠ none := by
  obtain ⟨m, h1, h2⟩ := C99_everything_processed hf h0 n ht
  refine ⟨m, h1, h2.resolve_right ?_⟩
  rintro ⟨bs, h3, -⟩
  obtain ⟨ls', hp⟩ := prefix_before (e := e) h1
  rw [← hp] at h3
  obtain ⟨as', h5, -⟩ := sessions_mono _ _ h3
  rw [ha] at h5
  cases h5

/-- The two sessions of C85, and the writer is told that no result came. -/
def exProcessed : List Label := exReading ++ exAnswer ++ [.resultTimeout 0, .writer 0, .writer 0]

/-- There is a fair execution in which a frame was read but is not yet matched, the writers are busy, and no request
is taken any more: the hypotheses of the theorems above. -/
example : ∃ e : Exec (step .perIteration), FairConn e ∧ e.st 0 = init ∧ NoneTaken e 26 ∧
    (e.st 26).reader = .exec ∧ (e.st 26).writer 0 = .write 0 ∧ (observed (e.st 26)).length = 3 ∧
    ∃ as, expected (sessions (before e 26)) = .ok as ∧ (as.filterMap obsAct).length = 5 := by
  have hv : (run .perIteration init exProcessed).map restB = some true := by decide +kernel
  cases hr : run .perIteration init exProcessed with
  | none => rw [hr] at hv; cases hv
  | some s =>
    rw [hr] at hv
    simp only [Option.map_some, Option.some.injEq] at hv
    refine ⟨execOf .perIteration exProcessed s hr, quiet_fair hr (quiet_of_restB ⟨_, hr⟩ hv), execOf_start hr, ?_, ?_⟩
    · intro m hm w src hc
      have : ∀ l, exProcessed[m]? = some l → (match l with | .take _ _ => false | _ => true) = true := by
        intro l hl
        have hall : ((exProcessed.drop 26).all fun l => match l with | .take _ _ => false | _ => true) = true := by
          decide +kernel
        rw [List.all_eq_true] at hall
        refine hall l (List.mem_of_getElem? (i := m - 26) ?_)
        rw [List.getElem?_drop, show 26 + (m - 26) = m by omega]
        exact hl
      exact absurd (this _ hc) (by simp)
    · have hw : (run .perIteration init (exProcessed.take 26)).map
          (fun s => (s.reader, s.writer 0, (observed s).length)) = some (.exec, .write 0, 3) := by decide +kernel
      cases hy : run .perIteration init (exProcessed.take 26) with
      | none => rw [hy] at hw; cases hw
      | some t =>
        rw [hy] at hw
        simp only [Option.map_some, Option.some.injEq, Prod.mk.injEq] at hw
        have : (execOf .perIteration exProcessed s hr).st 26 = t := by simp [execOf, hy]
        rw [this]
        exact ⟨hw.1, hw.2.1, hw.2.2, _, rfl, by decide +kernel⟩

/-- A fair execution with bytes on which the reader panics. -/
example : ∃ e : Exec (step .perLoop), FairConn e ∧ e.st 0 = init ∧ NoneTaken e 2 ∧ (e.st 2).crashed = none ∧
    ∃ p, expected (sessions (before e 2)) = .error p := by
  let ls : List Label := [.connect true, .reader (.read ⟨[0x01, 0x01, 0xFE], true, 5⟩), .reader .go]
  have hv : (run .perLoop init ls).map (fun s => s.crashed.isSome) = some true := by decide +kernel
  cases hr : run .perLoop init ls with
  | none => rw [hr] at hv; cases hv
  | some s =>
    rw [hr] at hv
    simp only [Option.map_some, Option.some.injEq] at hv
    have hno : ∀ l, step .perLoop s l = none := by intro l; simp [step, hv]
    refine ⟨execOf .perLoop ls s hr, quiet_fair hr ⟨fun _ => hno _, fun _ => hno _, fun _ _ _ => hno _,
      fun _ => hno _, fun _ _ => hno _, fun _ _ => hno _⟩, execOf_start hr, ?_, ?_, _, rfl⟩
    · intro m hm w src hc
      have : m = 2 ∨ 3 ≤ m := by omega
      rcases this with rfl | h3
      · cases hc
      · have : ls[m]? = none := List.getElem?_eq_none h3
        rw [show (execOf .perLoop ls s hr).lab m = ls[m]? from rfl, this] at hc
        cases hc
    · have hw : (run .perLoop init (ls.take 2)).map (fun s => s.crashed) = some none := by decide +kernel
      cases hy : run .perLoop init (ls.take 2) with
      | none => rw [hy] at hw; cases hw
      | some t =>
        rw [hy] at hw
        simp only [Option.map_some, Option.some.injEq] at hw
        have : (execOf .perLoop ls s hr).st 2 = t := by simp [execOf, hy]
        rw [this]
        exact hw

end Verif.Props
