import Verif.Lemmas.ConnOnce
import Verif.Lemmas.ConnWire

/-
Progress of the connection machine: the holder of the lock can always release it; a timeout worker
can always close its request.
-/

set_option linter.unusedSimpArgs false
set_option maxHeartbeats 4000000

namespace Verif.Lemmas.Conn

open Verif.Go Verif.Model Verif.Model.Conn Verif.Spec

/-- The steps of the goroutine that holds the lock. -/
def ownedBy : Owner → Label → Bool
  | .writer w, .writer w' => w == w'
  | .timer t, .timer t' => t == t'
  | .scan, .reader _ => true
  | .frame, .reader _ => true
  | _, _ => false

def wRank : WriterAt → Nat
  | .clear _ => 9 | .insert _ => 8 | .inserting _ => 7 | .setLast _ => 6 | .timer _ => 5
  | .spawn _ => 4 | .write _ => 3 | .unlock _ => 2 | _ => 0

def cRank : CloseAt → Nat
  | .check => 3 | .close => 2 | .clear => 1

def tRank : TimerAt → Nat
  | .look _ => 9 | .deleting _ => 8 | .closing _ a => 2 + cRank a | .unlock _ => 1 | _ => 0

def rRank : ReaderAt → Nat
  | .scanTest _ _ => 9 | .scanSend _ _ => 8 | .scanNak _ _ => 7 | .scanDeleting _ _ => 6
  | .scanClosing _ _ a => 2 + cRank a | .scanCan _ _ => 2 | .scanUnlock _ _ => 1
  | .frameNext c => 20 * c.todo.length + 2
  | .frameMatch c _ => 20 * c.todo.length + 12
  | .frameOpen c _ => 20 * c.todo.length + 11
  | .frameSend c _ => 20 * c.todo.length + 10
  | .frameClosing c _ a => 20 * c.todo.length + 6 + cRank a
  | .frameDelete c _ => 20 * c.todo.length + 6
  | .frameDeleting c _ => 20 * c.todo.length + 5
  | .frameUnlock _ => 1
  | _ => 0

def rank (s : St) : Nat :=
  match s.lock with
  | none => 0
  | some (.writer w) => wRank (s.writer w)
  | some (.timer t) => tRank (s.timer t)
  | some .scan => rRank s.reader
  | some .frame => rRank s.reader

theorem filter_shorter {l : List Nat} {u : Nat} (h : u ∈ l) :
    (l.filter (· != u)).length + 1 ≤ l.length := by
  have := List.length_filter_lt_length_iff_exists (p := (· != u)) (l := l) |>.2 ⟨u, h, by simp⟩
  omega

/-- What a step of the lock holder achieves. -/
def Better (s s' : St) : Prop :=
  s'.crashed ≠ none ∨ s'.lock = none ∨ (s'.lock = s.lock ∧ rank s' < rank s)

theorem progress_writer {lv : LoopVars} {s : St} {w : Nat} (h : LockInv s) (hn : s.crashed = none)
    (ho : s.lock = some (.writer w)) : ∃ s', step lv s (.writer w) = some s' ∧ Better s s' := by
  have hc := (h.w w).2 ho
  cases hx : s.writer w <;> simp [hx, wCrit] at hc
  all_goals simp only [step, hn, Option.isSome_none, Bool.false_eq_true, if_false, writerStep, hx]
  case insert u => split <;> exact ⟨_, rfl, by simp [Better, rank, ho, wRank, hx, St.crash]⟩
  case timer u => split <;> exact ⟨_, rfl, by simp [Better, rank, ho, wRank, hx, St.crash]⟩
  case write u => split <;> exact ⟨_, rfl, by simp [Better, rank, ho, wRank, hx, St.crash]⟩
  all_goals exact ⟨_, rfl, by simp [Better, rank, ho, wRank, hx]⟩

theorem progress_timer {lv : LoopVars} {s : St} {t : Nat} (h : LockInv s) (hn : s.crashed = none)
    (ho : s.lock = some (.timer t)) : ∃ s', step lv s (.timer t) = some s' ∧ Better s s' := by
  have hc := (h.t t).2 ho
  cases hx : s.timer t <;> simp [hx, tCrit] at hc
  all_goals simp only [step, hn, Option.isSome_none, Bool.false_eq_true, if_false, timerStep, hx]
  case look u =>
    split
    · exact ⟨_, rfl, by simp [Better, St.crash]⟩
    · split <;> exact ⟨_, rfl, by simp [Better, rank, ho, tRank, hx]⟩
  case closing u a =>
    refine ⟨_, rfl, ?_⟩
    cases a <;> simp only [closeStep] <;> (try split) <;>
      simp [Better, rank, ho, tRank, hx, St.crash, cRank]
  all_goals exact ⟨_, rfl, by simp [Better, rank, ho, tRank, hx, cRank]⟩

theorem progress_reader {lv : LoopVars} {s : St} (h : LockInv s) (hn : s.crashed = none)
    (ho : s.lock = some .scan ∨ s.lock = some .frame) :
    ∃ op s', step lv s (.reader op) = some s' ∧ Better s s' := by
  have hc : sCrit s.reader = true ∨ fCrit s.reader = true :=
    ho.elim (fun h' => .inl (h.rs.2 h')) (fun h' => .inr (h.rf.2 h'))
  have hrank : ∀ s' : St, s'.lock = s.lock → rRank s'.reader < rRank s.reader → Better s s' := by
    intro s' h1 h2
    refine .inr (.inr ⟨h1, ?_⟩)
    rcases ho with ho | ho <;> simp [rank, h1, ho, h2]
  cases hx : s.reader <;> simp [hx, sCrit, fCrit] at hc
  case scanTest c u =>
    refine ⟨.go, ?_⟩
    simp only [step, hn, Option.isSome_none, Bool.false_eq_true, if_false, readerStep, hx]
    split <;> exact ⟨_, rfl, hrank _ rfl (by simp [hx, rRank])⟩
  case scanSend c u =>
    refine ⟨.skip, ?_⟩
    simp only [step, hn, Option.isSome_none, Bool.false_eq_true, if_false, readerStep, hx]
    exact ⟨_, rfl, hrank _ rfl (by simp [hx, rRank])⟩
  case scanNak c u =>
    refine ⟨.go, ?_⟩
    simp only [step, hn, Option.isSome_none, Bool.false_eq_true, if_false, readerStep, hx]
    split
    · exact ⟨_, rfl, by simp [Better, St.crash]⟩
    · split
      · split
        · exact ⟨_, rfl, by simp [Better, St.crash]⟩
        · exact ⟨_, rfl, hrank _ rfl (by simp [hx, rRank])⟩
      · exact ⟨_, rfl, hrank _ rfl (by simp [hx, rRank])⟩
  case scanDeleting c u =>
    refine ⟨.go, ?_⟩
    simp only [step, hn, Option.isSome_none, Bool.false_eq_true, if_false, readerStep, hx]
    exact ⟨_, rfl, hrank _ rfl (by simp [hx, rRank, ReaderAt.forget, cRank])⟩
  case scanClosing c u a =>
    refine ⟨.go, ?_⟩
    simp only [step, hn, Option.isSome_none, Bool.false_eq_true, if_false, readerStep, hx]
    refine ⟨_, rfl, ?_⟩
    cases a <;> simp only [closeStep] <;> (try split) <;>
      first
        | exact hrank _ rfl (by simp [hx, rRank, cRank])
        | exact .inl (by simp [St.crash])
  case scanCan c u =>
    refine ⟨.go, ?_⟩
    simp only [step, hn, Option.isSome_none, Bool.false_eq_true, if_false, readerStep, hx]
    split
    · exact ⟨_, rfl, by simp [Better, St.crash]⟩
    · split <;> exact ⟨_, rfl, hrank _ rfl (by simp [hx, rRank])⟩
  case scanUnlock c u =>
    refine ⟨.go, ?_⟩
    simp only [step, hn, Option.isSome_none, Bool.false_eq_true, if_false, readerStep, hx]
    exact ⟨_, rfl, .inr (.inl rfl)⟩
  case frameNext c =>
    cases ht : c.todo with
    | nil =>
      refine ⟨.stop, ?_⟩
      simp only [step, hn, Option.isSome_none, Bool.false_eq_true, if_false, readerStep, hx, ht, if_true]
      split
      · exact ⟨_, rfl, by simp [Better, St.crash]⟩
      · exact ⟨_, rfl, hrank _ rfl (by simp [hx, rRank])⟩
    | cons u r =>
      refine ⟨.pick u, ?_⟩
      simp only [step, hn, Option.isSome_none, Bool.false_eq_true, if_false, readerStep, hx]
      split
      · exact ⟨_, rfl, by simp [Better, St.crash]⟩
      · rw [if_pos (by simp [ht])]
        refine ⟨_, rfl, hrank _ rfl ?_⟩
        have := filter_shorter (l := c.todo) (u := u) (by simp [ht])
        simp only [hx, rRank]
        omega
  case frameMatch c u =>
    refine ⟨.go, ?_⟩
    simp only [step, hn, Option.isSome_none, Bool.false_eq_true, if_false, readerStep, hx]
    split
    · exact ⟨_, rfl, by simp [Better, St.crash]⟩
    · exact ⟨_, rfl, hrank _ rfl (by simp [hx, rRank])⟩
    · exact ⟨_, rfl, hrank _ rfl (by simp [hx, rRank])⟩
  case frameOpen c u =>
    refine ⟨.go, ?_⟩
    simp only [step, hn, Option.isSome_none, Bool.false_eq_true, if_false, readerStep, hx]
    split <;> exact ⟨_, rfl, hrank _ rfl (by simp [hx, rRank])⟩
  case frameSend c u =>
    refine ⟨.skip, ?_⟩
    simp only [step, hn, Option.isSome_none, Bool.false_eq_true, if_false, readerStep, hx]
    exact ⟨_, rfl, hrank _ rfl (by simp [hx, rRank, cRank])⟩
  case frameClosing c u a =>
    refine ⟨.go, ?_⟩
    simp only [step, hn, Option.isSome_none, Bool.false_eq_true, if_false, readerStep, hx]
    refine ⟨_, rfl, ?_⟩
    cases a <;> simp only [closeStep] <;> (try split) <;>
      first
        | exact hrank _ rfl (by simp [hx, rRank, cRank])
        | exact .inl (by simp [St.crash])
  case frameDelete c u =>
    refine ⟨.go, ?_⟩
    simp only [step, hn, Option.isSome_none, Bool.false_eq_true, if_false, readerStep, hx]
    split
    · exact ⟨_, rfl, by simp [Better, St.crash]⟩
    · exact ⟨_, rfl, hrank _ rfl (by simp [hx, rRank])⟩
  case frameDeleting c u =>
    refine ⟨.go, ?_⟩
    simp only [step, hn, Option.isSome_none, Bool.false_eq_true, if_false, readerStep, hx]
    exact ⟨_, rfl, hrank _ rfl (by simp [hx, rRank])⟩
  case frameUnlock c =>
    refine ⟨.go, ?_⟩
    simp only [step, hn, Option.isSome_none, Bool.false_eq_true, if_false, readerStep, hx]
    exact ⟨_, rfl, .inr (.inl rfl)⟩

theorem progress {lv : LoopVars} {s : St} {o : Owner} (h : LockInv s) (hn : s.crashed = none)
    (ho : s.lock = some o) : ∃ l s', ownedBy o l = true ∧ step lv s l = some s' ∧ Better s s' := by
  cases o with
  | writer w =>
    obtain ⟨s', h1, h2⟩ := progress_writer (lv := lv) h hn ho
    exact ⟨_, s', by simp [ownedBy], h1, h2⟩
  | timer t =>
    obtain ⟨s', h1, h2⟩ := progress_timer (lv := lv) h hn ho
    exact ⟨_, s', by simp [ownedBy], h1, h2⟩
  | scan =>
    obtain ⟨op, s', h1, h2⟩ := progress_reader (lv := lv) h hn (.inl ho)
    exact ⟨_, s', rfl, h1, h2⟩
  | frame =>
    obtain ⟨op, s', h1, h2⟩ := progress_reader (lv := lv) h hn (.inr ho)
    exact ⟨_, s', rfl, h1, h2⟩

/-- A step that ends in a fatal concurrent map access is a step of the reader's control-byte scan. -/
theorem mapRace_scan {lv : LoopVars} {s s' : St} {l : Label} (h : Reachable lv s)
    (hs : step lv s l = some s') (hc : s'.crashed = some .mapRace) :
    ∃ c op, s.reader = .scanNext c ∧ l = .reader op := by
  have hm := mapInv h
  unfold MapInv at hm
  obtain ⟨h1, h2, h3, h4⟩ := lockInv h
  have hn : s.crashed = none := by
    unfold step at hs
    split at hs
    · cases hs
    · rename_i hx; simpa using hx
  have hm := hm hn
  have b1 : ∀ w, s.lock = some (.writer w) → s.mapBusy = wMid (s.writer w) := by
    intro w hw; rw [hm]; simp [midOf, hw]
  have b2 : ∀ t, s.lock = some (.timer t) → s.mapBusy = tMid (s.timer t) := by
    intro w hw; rw [hm]; simp [midOf, hw]
  have b3 : s.lock = some .scan → s.mapBusy = rMid s.reader := by
    intro hw; rw [hm]; simp [midOf, hw]
  have b4 : s.lock = some .frame → s.mapBusy = rMid s.reader := by
    intro hw; rw [hm]; simp [midOf, hw]
  clear hm h
  revert hc
  conn_step hs
  all_goals conn_facts2 s
  all_goals try have m1 := congrArg wMid (by assumption : St.writer s _ = _)
  all_goals try conv at m1 => rhs; whnf
  all_goals try have m2 := congrArg tMid (by assumption : St.timer s _ = _)
  all_goals try conv at m2 => rhs; whnf
  all_goals try have m3 := congrArg rMid (by assumption : St.reader s = _)
  all_goals try conv at m3 => rhs; whnf
  all_goals intro hc
  all_goals first
    | (simp only [hn] at hc; cases hc; done)
    | grind [→ nsp_err, → iter_err, → match_err]

/-- The lock holder alone can release the lock (or crash). -/
theorem release {lv : LoopVars} {s : St} {o : Owner} (h : Reachable lv s) (hn : s.crashed = none)
    (ho : s.lock = some o) : ∃ ls s', (∀ l ∈ ls, ownedBy o l = true) ∧ run lv s ls = some s' ∧
      (s'.crashed ≠ none ∨ s'.lock = none) ∧ s'.crashed ≠ some .mapRace := by
  generalize hk : rank s = k
  induction k using Nat.strongRecOn generalizing s with
  | _ k ih =>
    obtain ⟨l, s1, h1, h2, h3⟩ := progress (lv := lv) (lockInv h) hn ho
    have hm : s1.crashed ≠ some .mapRace := by
      intro hm
      obtain ⟨c, op, hr, rfl⟩ := mapRace_scan h h2 hm
      have hL := lockInv h
      cases o <;> simp [ownedBy] at h1
      · have := hL.rs.2 ho; simp [hr, sCrit] at this
      · have := hL.rf.2 ho; simp [hr, fCrit] at this
    by_cases hb : s1.crashed ≠ none ∨ s1.lock = none
    · exact ⟨[l], s1, by simp [h1], by simp [run, h2], hb, hm⟩
    · have hb1 : s1.crashed = none := by
        cases hcr : s1.crashed with
        | none => rfl
        | some p => exact absurd (.inl (by simp [hcr])) hb
      rcases h3 with h3 | h3 | ⟨h3, h4⟩
      · exact absurd (.inl h3) hb
      · exact absurd (.inr h3) hb
      · obtain ⟨ls, s2, g1, g2, g3⟩ := ih (rank s1) (hk ▸ h4) (reachable_step h h2) hb1 (h3.trans ho) rfl
        exact ⟨l :: ls, s2, by simp [h1]; exact g1, by simp [run, h2, g2], g3⟩

end Verif.Lemmas.Conn
