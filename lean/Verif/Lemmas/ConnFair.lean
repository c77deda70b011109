import Verif.Lemmas.Fair
import Verif.Spec.ConnFair
import Verif.Lemmas.ConnOrder

/-
Fair executions of the connection machine.
-/

set_option linter.unusedSimpArgs false
set_option maxHeartbeats 4000000

namespace Verif.Lemmas.Conn

open Verif.Go Verif.Model Verif.Model.Conn Verif.Spec

theorem rRank_forget (r : ReaderAt) (u : Nat) : rRank (r.forget u) = rRank r := by
  cases r <;> rfl

theorem owner_writer {lv : LoopVars} {s s' : St} {l : Label} {w : Nat} (h : LockInv s) (hf : Fresh s)
    (ho : s.lock = some (.writer w)) (hs : step lv s l = some s') : s'.crashed ≠ none ∨ s'.lock = none ∨
      s'.lock = some (.writer w) ∧ (if l = .writer w then wRank (s'.writer w) < wRank (s.writer w)
        else s'.writer w = s.writer w) := by
  obtain ⟨h1, h2, h3, h4⟩ := h
  have f1 := hf.writer
  have hw := (h1 w).2 ho
  conn_step hs
  all_goals try (refine .inl ?_; simp; done)
  all_goals try (exact .inr (.inl rfl))
  all_goals grind [wRank, wCrit, tCrit, sCrit, fCrit, upd]

theorem owner_timer {lv : LoopVars} {s s' : St} {l : Label} {t : Nat} (h : LockInv s) (hf : Fresh s)
    (ho : s.lock = some (.timer t)) (hs : step lv s l = some s') : s'.crashed ≠ none ∨ s'.lock = none ∨
      s'.lock = some (.timer t) ∧ (if l = .timer t then tRank (s'.timer t) < tRank (s.timer t)
        else s'.timer t = s.timer t) := by
  obtain ⟨h1, h2, h3, h4⟩ := h
  have f1 := hf.timer
  have hw := (h2 t).2 ho
  conn_step hs
  all_goals try (refine .inl ?_; simp; done)
  all_goals try (exact .inr (.inl rfl))
  all_goals grind [tRank, cRank, wCrit, tCrit, sCrit, fCrit, upd]

theorem owner_reader {lv : LoopVars} {s s' : St} {l : Label} {o : Owner} (h : LockInv s)
    (ho : s.lock = some o) (hr : o = .scan ∨ o = .frame) (hs : step lv s l = some s') : s'.crashed ≠ none ∨ s'.lock = none ∨
      s'.lock = some o ∧ (if isReader l = true then rRank s'.reader < rRank s.reader else s'.reader = s.reader) := by
  obtain ⟨h1, h2, h3, h4⟩ := h
  have hw : sCrit s.reader = true ∨ fCrit s.reader = true := by
    rcases hr with rfl | rfl
    · exact .inl (h3.2 ho)
    · exact .inr (h4.2 ho)
  conn_step hs
  all_goals try (refine .inl ?_; simp; done)
  all_goals try (exact .inr (.inl rfl))
  all_goals simp only [isReader, if_true, Bool.false_eq_true, if_false]
  all_goals first
    | exact .inr (.inr ⟨ho, rfl⟩)
    | grind [rRank, cRank, wCrit, tCrit, sCrit, fCrit, upd, filter_shorter, rRank_forget, ReaderAt.forget]

/-- Steps of the goroutine that holds the lock. -/
def mover : Owner → Label → Prop
  | .writer w, l => l = .writer w
  | .timer t, l => l = .timer t
  | .scan, l | .frame, l => isReader l = true ∧ external l = false

theorem reader_crit_internal {lv : LoopVars} {s s' : St} {l : Label} (hw : sCrit s.reader = true ∨ fCrit s.reader = true)
    (hs : step lv s l = some s') : external l = false := by
  unfold external
  split
  · simp only [step] at hs
    split at hs
    · cases hs
    · unfold readerStep at hs
      cases hx : s.reader <;> simp [hx, sCrit, fCrit] at hw hs
  · simp only [step] at hs
    split at hs
    · cases hs
    · unfold readerStep at hs
      cases hx : s.reader <;> simp [hx, sCrit, fCrit] at hw hs
  · rfl

theorem owner_step {lv : LoopVars} {s s' : St} {l : Label} {o : Owner} (h : Reachable lv s)
    (ho : s.lock = some o) (hs : step lv s l = some s') : s'.crashed ≠ none ∨ s'.lock = none ∨
      s'.lock = some o ∧ rank s' ≤ rank s ∧ (mover o l → rank s' < rank s) := by
  have hL := lockInv h
  cases o with
  | writer w =>
    rcases owner_writer hL (fresh h) ho hs with h1 | h1 | ⟨h1, h2⟩
    · exact .inl h1
    · exact .inr (.inl h1)
    · refine .inr (.inr ⟨h1, ?_⟩)
      simp only [rank, h1, ho, mover]
      split at h2
      · exact ⟨by omega, fun _ => h2⟩
      · next e => exact ⟨by rw [h2]; exact Nat.le_refl _, fun k => absurd k e⟩
  | timer t =>
    rcases owner_timer hL (fresh h) ho hs with h1 | h1 | ⟨h1, h2⟩
    · exact .inl h1
    · exact .inr (.inl h1)
    · refine .inr (.inr ⟨h1, ?_⟩)
      simp only [rank, h1, ho, mover]
      split at h2
      · exact ⟨by omega, fun _ => h2⟩
      · next e => exact ⟨by rw [h2]; exact Nat.le_refl _, fun k => absurd k e⟩
  | scan =>
    rcases owner_reader hL ho (.inl rfl) hs with h1 | h1 | ⟨h1, h2⟩
    · exact .inl h1
    · exact .inr (.inl h1)
    · refine .inr (.inr ⟨h1, ?_⟩)
      simp only [rank, h1, ho, mover]
      split at h2
      · exact ⟨by omega, fun _ => h2⟩
      · next e => exact ⟨by rw [h2]; exact Nat.le_refl _, fun k => absurd k.1 e⟩
  | frame =>
    rcases owner_reader hL ho (.inr rfl) hs with h1 | h1 | ⟨h1, h2⟩
    · exact .inl h1
    · exact .inr (.inl h1)
    · refine .inr (.inr ⟨h1, ?_⟩)
      simp only [rank, h1, ho, mover]
      split at h2
      · exact ⟨by omega, fun _ => h2⟩
      · next e => exact ⟨by rw [h2]; exact Nat.le_refl _, fun k => absurd k.1 e⟩

theorem owner_enabled {lv : LoopVars} {s : St} {o : Owner} (h : Reachable lv s) (hn : s.crashed = none)
    (ho : s.lock = some o) : Enabled (step lv) (mover o) s := by
  have hL := lockInv h
  obtain ⟨l, s', h1, h2, -⟩ := progress (lv := lv) hL hn ho
  refine ⟨l, s', ?_, h2⟩
  cases o <;> cases l <;> simp [ownedBy] at h1
  · exact h1 ▸ rfl
  · exact h1 ▸ rfl
  · exact ⟨rfl, reader_crit_internal (.inl (hL.rs.2 ho)) h2⟩
  · exact ⟨rfl, reader_crit_internal (.inr (hL.rf.2 ho)) h2⟩

/-! ### Executions -/

variable {lv : LoopVars} {e : Exec (step lv)}

theorem exec_reach (h : Reachable lv (e.st 0)) (n : Nat) : Reachable lv (e.st n) :=
  exec_keep e (fun _ _ _ hq hs => reachable_step hq hs) h n (Nat.zero_le _)

theorem fair_mover (hf : FairConn e) : ∀ o, Fairly e (mover o)
  | .writer w => hf.writer w
  | .timer t => hf.timer t
  | .scan => hf.reader
  | .frame => hf.reader

/-- The lock is free again and again. -/
theorem lock_free (hf : FairConn e) (hr : Reachable lv (e.st 0)) (hn : ∀ n, (e.st n).crashed = none) :
    ∀ n, ∃ m, n ≤ m ∧ (e.st m).lock = none := by
  intro n
  generalize hk : rank (e.st n) = k
  induction k using Nat.strongRecOn generalizing n with
  | _ k ih =>
    cases ho : (e.st n).lock with
    | none => exact ⟨n, Nat.le_refl _, ho⟩
    | some o =>
      obtain ⟨m, h1, h2⟩ := leads e (fair_mover hf o) (Q := fun s => s.lock = some o ∧ rank s ≤ k)
        (R := fun s => s.lock = none ∨ s.lock = some o ∧ rank s < k) (n0 := n)
        (by
          rintro m - ⟨q1, q2⟩ l hs
          rcases owner_step (exec_reach hr m) q1 hs with h1 | h1 | ⟨h1, h2, h3⟩
          · exact absurd (hn _) h1
          · exact .inl (.inl h1)
          · by_cases hm : Conn.mover o l
            · exact .inl (.inr ⟨h1, by have := h3 hm; omega⟩)
            · exact .inr ⟨⟨h1, by omega⟩, hm⟩)
        (fun m hm hq => ⟨m, Nat.le_refl _, owner_enabled (exec_reach hr m) (hn m) (hq m (Nat.le_refl _)).1⟩)
        (Nat.le_refl _) ⟨ho, by omega⟩
      rcases h2 with h2 | ⟨h2, h3⟩
      · exact ⟨m, h1, h2⟩
      · obtain ⟨m', g1, g2⟩ := ih _ h3 m rfl
        exact ⟨m', by omega, g2⟩

/-! ### Writers come back -/

/-- How far a writer is from being idle. -/
def wDist : WriterAt → Nat
  | .absent | .idle => 0
  | .reset _ => 1 | .await _ => 2 | .unlock _ => 3 | .write _ => 4 | .spawn _ => 5 | .timer _ => 6
  | .setLast _ => 7 | .inserting _ => 8 | .insert _ => 9 | .clear _ => 10 | .lock _ => 11

theorem nWriter_step {s s' : St} {l : Label} (hs : step lv s l = some s') : s.nWriter ≤ s'.nWriter := by
  conn_step hs
  all_goals first
    | exact Nat.le_refl _
    | (simp; done)
    | (dsimp only; omega)

theorem writer_moves {s s' : St} {l : Label} {w : Nat} (hf : Fresh s) (hd : 0 < wDist (s.writer w))
    (hs : step lv s l = some s') : s'.crashed ≠ none ∨
      (if l = .writer w then wDist (s'.writer w) < wDist (s.writer w) else s'.writer w = s.writer w) := by
  have f1 := hf.writer
  conn_step hs
  all_goals try (refine .inl ?_; simp; done)
  all_goals grind [wDist, upd]

theorem result_moves {s s' : St} {l : Label} {w : Nat} (hf : Fresh s) (hd : s.result w = .finished)
    (hs : step lv s l = some s') : s'.crashed ≠ none ∨ l = .writer w ∨ s'.result w = .finished ∨ wDist (s.writer w) ≠ 2 := by
  have f1 := hf.writer
  conn_step hs
  all_goals try (refine .inl ?_; simp; done)
  all_goals grind [wDist, upd]

theorem resultTimeout_moves {s s' : St} {l : Label} {w u : Nat} (hf : Fresh s) (hd : s.result w = .waiting u)
    (hw : s.writer w = .await u) (hs : step lv s l = some s') : s'.crashed ≠ none ∨ s'.result w = .finished ∨
      s'.result w = .waiting u ∧ s'.writer w = .await u ∧ l ≠ .resultTimeout w := by
  have f1 := hf.writer
  conn_step hs
  all_goals try (refine .inl ?_; simp; done)
  all_goals grind [upd]

theorem writer_can {s : St} {w : Nat} (h : Reachable lv s) (hn : s.crashed = none) (hd : 0 < wDist (s.writer w))
    (hl : wDist (s.writer w) = 11 → s.lock = none) (ha : wDist (s.writer w) = 2 → s.result w = .finished) :
    Enabled (step lv) (fun l => l = .writer w) s := by
  unfold Enabled
  cases hx : s.writer w <;> simp only [hx, wDist] at hd hl ha <;> try (exact absurd hd (by decide))
  all_goals refine ⟨.writer w, ?_⟩
  all_goals first
    | simp [step, hn, writerStep, hx, hl, ha]; done
    | (simp only [step, hn, writerStep, hx, Option.isSome_none, Bool.false_eq_true, if_false]
       split <;> exact ⟨_, trivial, rfl⟩)

/-- A writer that is not idle will have moved on. -/
theorem writer_progress (hf : FairConn e) (hr : Reachable lv (e.st 0)) (hn : ∀ n, (e.st n).crashed = none) (w n : Nat)
    (x : WriterAt) (hx : (e.st n).writer w = x) (hd : 0 < wDist x) :
    ∃ m s, n ≤ m ∧ s = e.st m ∧ s.writer w = x ∧ e.lab m = some (.writer w) ∧
      step lv s (.writer w) = some (e.st (m + 1)) := by
  apply Classical.byContradiction
  intro hno
  have hstay : ∀ m, n ≤ m → (e.st m).writer w = x := by
    intro m hm
    induction hm with
    | refl => exact hx
    | step hm ih =>
      next m =>
      have hnx := e.next m
      split at hnx
      · next l hl =>
        rcases writer_moves (fresh (exec_reach hr m)) (w := w) (by rw [ih]; exact hd) hnx with h1 | h1
        · exact absurd (hn _) h1
        · split at h1
          · next el => subst el; exact absurd ⟨m, _, hm, rfl, ih, hl, hnx⟩ hno
          · rw [h1]; exact ih
      · rw [hnx]; exact ih
  have hnl : ∀ m, n ≤ m → e.lab m ≠ some (.writer w) := by
    intro m hm hl
    have hnx := e.next m
    rw [hl] at hnx
    exact hno ⟨m, _, hm, rfl, hstay m hm, hl, hnx⟩
  have hfin : wDist x = 2 → ∃ k, n ≤ k ∧ ∀ m, k ≤ m → (e.st m).result w = .finished := by
    intro h2
    obtain ⟨u, hu⟩ : ∃ u, x = .await u := by cases x <;> simp [wDist] at h2; exact ⟨_, rfl⟩
    have key : ∃ k, n ≤ k ∧ (e.st k).result w = .finished := by
      rcases (trOk (w := w) (exec_reach hr n)).after u (by rw [hx, hu]; rfl) with ⟨h1, -⟩ | ⟨h1, -⟩
      · refine leads e (hf.result w) (Q := fun s => s.result w = .waiting u ∧ s.writer w = .await u)
          (R := fun s => s.result w = .finished) (n0 := n) ?_ ?_ (Nat.le_refl _) ⟨h1, by rw [hx, hu]⟩
        · rintro m hm ⟨q1, q2⟩ l hs
          rcases resultTimeout_moves (fresh (exec_reach hr m)) q1 q2 hs with h | h | ⟨h, h', h''⟩
          · exact absurd (hn _) h
          · exact .inl h
          · exact .inr ⟨⟨h, h'⟩, h''⟩
        · intro m hm hq
          refine ⟨m, Nat.le_refl _, .resultTimeout w, ?_⟩
          simp only [step, hn m, Option.isSome_none, Bool.false_eq_true, if_false, resultTimeoutStep,
            (hq m (Nat.le_refl _)).1]
          exact ⟨_, trivial, rfl⟩
      · exact ⟨n, Nat.le_refl _, h1⟩
    obtain ⟨k, hk, h1⟩ := key
    refine ⟨k, hk, fun m hm => ?_⟩
    induction hm with
    | refl => exact h1
    | step hm ih =>
      next m =>
      have hnx := e.next m
      split at hnx
      · next l hl =>
        rcases result_moves (fresh (exec_reach hr m)) ih hnx with h | h | h | h
        · exact absurd (hn _) h
        · exact absurd (h ▸ hl) (hnl m (Nat.le_trans hk hm))
        · exact h
        · exact absurd (by rw [hstay m (Nat.le_trans hk hm)]; exact h2) h
      · rw [hnx]; exact ih
  obtain ⟨m, l, hm, hl, rfl⟩ := hf.writer w (fun k => by
    by_cases h2 : wDist x = 2
    · obtain ⟨k', hk', h'⟩ := hfin h2
      refine ⟨max k k', by omega, writer_can (exec_reach hr _) (hn _) ?_ ?_ ?_⟩
      · rw [hstay (max k k') (by omega)]; exact hd
      · rw [hstay (max k k') (by omega)]; omega
      · intro _; exact h' _ (by omega)
    · obtain ⟨m, hm, h'⟩ := lock_free hf hr hn (max k n)
      have hm' : n ≤ m := Nat.le_trans (Nat.le_max_right k n) hm
      refine ⟨m, Nat.le_trans (Nat.le_max_left k n) hm, writer_can (exec_reach hr _) (hn _) ?_ ?_ ?_⟩
      · rw [hstay m hm']; exact hd
      · intro _; exact h'
      · rw [hstay m hm']; exact fun h => absurd h h2) n
  exact hnl m hm hl

/-- Every writer becomes idle again and again. -/
theorem writer_idle (hf : FairConn e) (hr : Reachable lv (e.st 0)) (hn : ∀ n, (e.st n).crashed = none) (w : Nat) :
    ∀ n, w < (e.st n).nWriter → ∃ m, n ≤ m ∧ (e.st m).writer w = .idle := by
  intro n hw
  generalize hk : wDist ((e.st n).writer w) = k
  induction k using Nat.strongRecOn generalizing n with
  | _ k ih =>
    by_cases h0 : k = 0
    · subst h0
      have := writer_present (exec_reach hr n) w hw
      exact ⟨n, Nat.le_refl _, by cases hx : (e.st n).writer w <;> simp_all [wDist]⟩
    · obtain ⟨m, s, hm, rfl, h1, h2, h3⟩ := writer_progress hf hr hn w n _ rfl (by omega)
      have hd : 0 < wDist ((e.st m).writer w) := by rw [h1]; omega
      have hw' : w < (e.st (m + 1)).nWriter := by
        apply Nat.lt_of_not_le
        intro hle
        have e1 := (fresh (exec_reach hr (m + 1))).writer w hle
        have e2 := nWriter_step h3
        have e3 := (fresh (exec_reach hr m)).writer w (by omega)
        rw [e3] at hd
        simp [wDist] at hd
      rcases writer_moves (fresh (exec_reach hr m)) hd h3 with h4 | h4
      · exact absurd (hn _) h4
      · rw [if_pos rfl, h1] at h4
        obtain ⟨m', g1, g2⟩ := ih _ (hk ▸ h4) (m + 1) hw' rfl
        exact ⟨m', by omega, g2⟩

end Verif.Lemmas.Conn
