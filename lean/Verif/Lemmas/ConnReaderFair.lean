import Verif.Lemmas.ConnFair
import Verif.Lemmas.ConnReaderLive

/-
The reader is bound to work off what it has read, when no request enters the table any more.
-/

set_option linter.unusedSimpArgs false
set_option maxHeartbeats 4000000

namespace Verif.Lemmas.Conn

open Verif.Go Verif.Model Verif.Model.Conn Verif.Spec

/-- No writer is busy. -/
def WritersRest (s : St) : Prop := ∀ w, s.writer w = .idle ∨ s.writer w = .absent

/-- Entries of the table a running iteration may still come to. -/
def ahead (s : St) (c : Scan) : Nat := (s.inFlight.filter fun u => !c.seen.contains u).length

/-- The work left within one action, for whatever the other goroutines remove meanwhile. -/
def rPos (s : St) : Nat :=
  match s.reader with
  | .down | .read => 0
  | .loop => 1
  | .exec => 2
  | .scanNext c => 15 * ahead s c + 3
  | .scanUnlock c _ => 15 * ahead s c + 4
  | .scanCan c _ => 15 * ahead s c + 5
  | .scanClosing c _ a => 15 * ahead s c + 5 + cRank a
  | .scanDeleting c _ => 15 * ahead s c + 9
  | .scanNak c _ => 15 * ahead s c + 10
  | .scanSend c _ => 15 * ahead s c + 11
  | .scanTest c _ => 15 * ahead s c + 12
  | .scanLock c _ => 15 * ahead s c + 13
  | .frameLock _ _ => 15 * s.inFlight.length + 5
  | .frameUnlock _ => 3
  | .frameNext c => 15 * c.todo.length + 4
  | .frameDeleting c _ => 15 * c.todo.length + 7
  | .frameDelete c _ => 15 * c.todo.length + 8
  | .frameClosing c _ a => 15 * c.todo.length + 8 + cRank a
  | .frameSend c _ => 15 * c.todo.length + 12
  | .frameOpen c _ => 15 * c.todo.length + 13
  | .frameMatch c _ => 15 * c.todo.length + 14

theorem filter_filter_le (l seen : List Nat) (u : Nat) :
    ((l.filter (· != u)).filter fun v => !(seen.filter (· != u)).contains v).length ≤
      (l.filter fun v => !seen.contains v).length := by
  induction l with
  | nil => simp
  | cons a l ih =>
    by_cases h : a = u
    · subst h
      simp only [List.filter_cons, bne_self_eq_false, Bool.false_eq_true, if_false]
      split
      · simp only [List.length_cons]; omega
      · exact ih
    · have h1 : (a != u) = true := by simpa using h
      have h2 : (seen.filter (· != u)).contains a = seen.contains a := by
        rw [Bool.eq_iff_iff]
        simp [h]
      simp only [List.filter_cons, h1, if_true, h2]
      split
      · simp only [List.length_cons]; omega
      · exact ih

theorem filter_cons_lt {l seen : List Nat} {u : Nat} (h1 : u ∈ l) (h2 : u ∉ seen) :
    (l.filter fun v => !(u :: seen).contains v).length + 1 ≤ (l.filter fun v => !seen.contains v).length := by
  have hm : u ∈ l.filter fun v => !seen.contains v := by simp [h1, h2]
  have := filter_shorter hm
  rw [List.filter_filter] at this
  have he : (l.filter fun v => !(u :: seen).contains v) = l.filter fun a => (a != u) && !seen.contains a := by
    apply List.filter_congr
    intro x _
    simp only [List.contains_cons, bne, Bool.not_or]
  rw [he]
  exact this

theorem rPos_forget (s : St) (u : Nat) (b : Bool) (t : Nat → TimerAt) :
    rPos { s with mapBusy := b, inFlight := s.inFlight.filter (· != u), reader := s.reader.forget u, timer := t } ≤ rPos s := by
  have hl : (s.inFlight.filter (· != u)).length ≤ s.inFlight.length := List.length_filter_le _ _
  cases hx : s.reader <;> simp only [rPos, hx, ReaderAt.forget, ahead] <;>
    first
    | exact Nat.le_refl _
    | omega
    | (next c _ _ => have := filter_filter_le s.inFlight c.seen u; omega)
    | (next c _ => have := filter_filter_le s.inFlight c.seen u; omega)
    | (next c => have := filter_filter_le s.inFlight c.seen u; omega)

/-- Case analysis on the step of a known label. -/
syntax "conn_lab " ident : tactic
macro_rules
  | `(tactic| conn_lab $h) => `(tactic| (
      simp only [step] at $h:ident
      split at $h:ident
      · cases $h:ident
      simp only [submit, clientStep, takeStep, writerStep, resultTimeoutStep, timerStep, resendStep,
          connectStep, readerStep, closeStep, St.crash] at $h:ident
      all_goals repeat' split at $h:ident
      all_goals try injection $h:ident with $h:ident
      all_goals try subst $h:ident
      all_goals try (cases $h:ident; done)))

variable {lv : LoopVars}

/-- The others do not add to the reader's work. -/
theorem others_pos {s s' : St} {l : Label} (hr : rRest s.reader = false) (hq : WritersRest s) (hl : isReader l = false)
    (ht : ∀ w src, l ≠ .take w src) (hs : step lv s l = some s') : s'.crashed ≠ none ∨
      (WritersRest s' ∧ s'.inFlight.length ≤ s.inFlight.length ∧ rRest s'.reader = false ∧ s'.buf = s.buf ∧ s'.acts = s.acts ∧
        rPos s' ≤ rPos s) := by
  have hlen : ∀ u, (s.inFlight.filter (· != u)).length ≤ s.inFlight.length := fun u => List.length_filter_le _ _
  cases l with
  | take w src => exact absurd rfl (ht w src)
  | reader op => simp [isReader] at hl
  | writer w =>
    simp only [step] at hs
    split at hs
    · cases hs
    rcases hq w with h | h <;> simp [writerStep, h] at hs
  | timer t =>
    by_cases hd : ∃ u, s.timer t = .deleting u
    · obtain ⟨u, hd⟩ := hd
      simp only [step] at hs
      split at hs
      · cases hs
      simp only [timerStep, hd, Option.some.injEq] at hs
      subst hs
      exact .inr ⟨hq, hlen u, by rw [rRest_forget]; exact hr, rfl, rfl, rPos_forget s u _ _⟩
    · conn_lab hs
      all_goals try (exact absurd ⟨_, by assumption⟩ hd)
      all_goals try (refine .inl ?_; simp; done)
      all_goals exact .inr ⟨hq, Nat.le_refl _, hr, rfl, rfl, Nat.le_refl _⟩
  | connect ok =>
    simp only [step] at hs
    split at hs
    · cases hs
    unfold connectStep at hs
    split at hs
    · next h => rw [h] at hr; cases hr
    · cases hs
  | _ =>
    conn_lab hs
    all_goals try (refine .inl ?_; simp; done)
    all_goals exact .inr ⟨hq, Nat.le_refl _, hr, rfl, rfl, Nat.le_refl _⟩

/-- Within an action the reader's steps use up its work. -/
theorem reader_pos {s s' : St} {op : ReaderOp} (hr : rIdle s.reader = false) (hx : s.reader ≠ .exec)
    (hs : step lv s (.reader op) = some s') : s'.crashed ≠ none ∨
      (s'.writer = s.writer ∧ s'.inFlight.length ≤ s.inFlight.length ∧ rRest s'.reader = false ∧ s'.buf = s.buf ∧
        s'.acts = s.acts ∧ rPos s' < rPos s) := by
  have hlen : ∀ u, (s.inFlight.filter (· != u)).length ≤ s.inFlight.length := fun u => List.length_filter_le _ _
  conn_lab hs
  all_goals try (refine .inl ?_; simp; done)
  all_goals try (simp_all [rIdle]; done)
  all_goals refine .inr ⟨rfl, by first | exact Nat.le_refl _ | exact hlen _, rfl, rfl, rfl, ?_⟩
  all_goals simp only [rPos, ahead, ReaderAt.forget]
  all_goals simp only [*]
  all_goals try omega
  all_goals first
    | (next h => have := filter_cons_lt h.1 h.2; omega)
    | (next h => have := filter_shorter h; omega)
    | (simp only [cRank]; omega)
    | (rename_i c u _; have := filter_filter_le s.inFlight c.seen u; simp only [cRank]; omega)
    | (simp_all [cRank]; done)
    | grind [cRank]

theorem iter_done_acts {buf r : Slice} {as : List Act} (hv : buf.vis ≠ [])
    (h : iter buf = .ok (.done as r)) : as.length ≤ 3 := by
  obtain ⟨v, sp⟩ := buf
  have hs := iter_spec v sp hv
  rw [h] at hs
  have hcb : ∀ m, (callbackOf m).length ≤ 1 := by
    intro m; unfold callbackOf; (repeat' split) <;> simp
  cases hs with
  | ctrl b rest m h1 h2 h3 => have := hcb m; simp; omega
  | frame L ck body tail m h1 h2 h3 h4 => have := hcb m; simp; omega

/-- All the work left of what has been read; `W` is more than an action can take. -/
def rWork (W : Nat) (s : St) : Nat := 4 * W * s.buf.len + W * s.acts.length + rPos s

theorem reader_work {s s' : St} {op : ReaderOp} {K W : Nat} (hW : 15 * K + 30 ≤ W) (hK : s.inFlight.length ≤ K)
    (hr : rRest s.reader = false)
    (hs : step lv s (.reader op) = some s') : s'.crashed ≠ none ∨ rRest s'.reader = true ∨
      (s'.writer = s.writer ∧ s'.inFlight.length ≤ s.inFlight.length ∧ rRest s'.reader = false ∧
        rWork W s' < rWork W s) := by
  by_cases hx : rIdle s.reader = false ∧ s.reader ≠ .exec
  · rcases reader_pos hx.1 hx.2 hs with h | ⟨h1, h2, h3, h4, h5, h6⟩
    · exact .inl h
    · refine .inr (.inr ⟨h1, h2, h3, ?_⟩)
      unfold rWork
      rw [h4, h5]
      omega
  have hx' : s.reader = .loop ∨ s.reader = .exec := by
    cases hy : s.reader <;> simp_all [rIdle, rRest]
  rcases hx' with hx | hx
  · conn_lab hs
    all_goals try (exfalso; simp_all; done)
    all_goals try (refine .inl ?_; simp; done)
    all_goals try (refine .inr (.inl ?_); rfl)
    · next h0 _ b hit =>
      have := iter_drop_len (len_ne_zero h0) hit
      refine .inr (.inr ⟨rfl, Nat.le_refl _, hr, ?_⟩)
      have hm : 4 * W * s.buf.len = 4 * W * b.len + 4 * W := by rw [← this.1, Nat.mul_succ]
      simp only [rWork, rPos, hx]
      omega
    · next h0 _ as b hit =>
      have h1 := iter_done_len (len_ne_zero h0) hit
      have h2 := iter_done_acts (len_ne_zero h0) hit
      refine .inr (.inr ⟨rfl, Nat.le_refl _, rfl, ?_⟩)
      have hm : 4 * W * (b.len + 1) ≤ 4 * W * s.buf.len := Nat.mul_le_mul_left _ h1.1
      have hm2 : W * as.length ≤ W * 3 := Nat.mul_le_mul_left _ h2
      rw [Nat.mul_succ] at hm
      simp only [rWork, rPos, hx]
      omega
  · conn_lab hs
    all_goals try (exfalso; simp_all; done)
    all_goals refine .inr (.inr ⟨rfl, Nat.le_refl _, by first | rfl | exact hr, ?_⟩)
    all_goals simp only [rWork, rPos, hx, ahead, *]
    all_goals try rw [List.length_cons, Nat.mul_succ]
    · omega
    · next as _ =>
      have : (s.inFlight.filter fun u => !([] : List Nat).contains u).length ≤ s.inFlight.length := List.length_filter_le _ _
      omega
    · omega
    · omega
    · omega

theorem rest_writer {s s' : St} {l : Label} {w : Nat} (hw : s.writer w = .idle ∨ s.writer w = .absent)
    (ht : ∀ w src, l ≠ .take w src) (hs : step lv s l = some s') : s'.writer w = .idle ∨ s'.writer w = .absent := by
  cases l with
  | take w src => exact absurd rfl (ht w src)
  | writer v =>
    by_cases hv : v = w
    · subst hv
      simp only [step] at hs
      split at hs
      · cases hs
      rcases hw with h | h <;> simp [writerStep, h] at hs
    · have hv' : w ≠ v := Ne.symm hv
      conn_lab hs
      all_goals first
        | exact hw
        | (simp only [upd, hv', if_false]; exact hw)
  | connect ok =>
    conn_lab hs
    all_goals first
      | exact hw
      | (simp only [upd]; split; exact .inl rfl; exact hw)
  | _ =>
    conn_lab hs
    all_goals exact hw

variable {e : Exec (step lv)}

theorem exec_rest {n w : Nat} (ht : ∀ m, n ≤ m → ∀ w src, e.lab m ≠ some (.take w src)) {k : Nat} (hk : n ≤ k)
    (hw : (e.st k).writer w = .idle ∨ (e.st k).writer w = .absent) (m : Nat) (hm : k ≤ m) :
    (e.st m).writer w = .idle ∨ (e.st m).writer w = .absent := by
  induction hm with
  | refl => exact hw
  | step hm ih =>
    next m =>
    have := e.next m
    split at this
    · next l hl =>
      exact rest_writer ih (fun w src hc => ht m (Nat.le_trans hk hm) w src (hc ▸ hl)) this
    · rw [this]; exact ih

/-- When no request is taken any more, the writers come to rest. -/
theorem writers_rest (hf : FairConn e) (hr : Reachable lv (e.st 0)) (hn : ∀ n, (e.st n).crashed = none) (n : Nat)
    (ht : ∀ m, n ≤ m → ∀ w src, e.lab m ≠ some (.take w src)) : ∃ m, n ≤ m ∧ ∀ k, m ≤ k → WritersRest (e.st k) := by
  have key : ∀ j, j ≤ (e.st n).nWriter → ∃ m, n ≤ m ∧
      ∀ k, m ≤ k → ∀ w, w < j → (e.st k).writer w = .idle ∨ (e.st k).writer w = .absent := by
    intro j
    induction j with
    | zero => exact fun _ => ⟨n, Nat.le_refl _, fun _ _ w h => absurd h (Nat.not_lt_zero _)⟩
    | succ j ih =>
      intro hj
      obtain ⟨m1, a1, a2⟩ := ih (by omega)
      obtain ⟨m2, b1, b2⟩ := writer_idle hf hr hn j n (by omega)
      refine ⟨max m1 m2, by omega, fun k hk w hw => ?_⟩
      by_cases hwj : w < j
      · exact a2 k (by omega) w hwj
      · have : w = j := by omega
        subst this
        exact exec_rest ht b1 (.inl b2) k (by omega)
  obtain ⟨m, h1, h2⟩ := key _ (Nat.le_refl _)
  refine ⟨m, h1, fun k hk w => ?_⟩
  by_cases hw : w < (e.st n).nWriter
  · exact h2 k hk w hw
  · exact exec_rest ht (Nat.le_refl _) (.inr ((fresh (exec_reach hr n)).writer w (by omega))) k (by omega)

/-- When no request is taken any more, the reader comes back to waiting for bytes. -/
theorem reader_rests (hf : FairConn e) (hr : Reachable lv (e.st 0)) (hn : ∀ n, (e.st n).crashed = none) (n : Nat)
    (ht : ∀ m, n ≤ m → ∀ w src, e.lab m ≠ some (.take w src)) : ∃ m, n ≤ m ∧ rRest (e.st m).reader = true := by
  obtain ⟨n1, h1, hq⟩ := writers_rest hf hr hn n ht
  cases hx : rRest (e.st n1).reader with
  | true => exact ⟨n1, h1, hx⟩
  | false =>
    obtain ⟨K, hK⟩ : ∃ K, K = (e.st n1).inFlight.length := ⟨_, rfl⟩
    obtain ⟨m, g1, g2⟩ := leads_rank_lab e hf.reader
      (Q := fun s => rRest s.reader = false ∧ s.inFlight.length ≤ K) (R := fun s => rRest s.reader = true)
      (rWork (15 * K + 30)) (n0 := n1)
      (fun m hm hQ l hl hs => by
        cases hrd : isReader l with
        | true =>
          obtain ⟨op, rfl⟩ : ∃ op, l = .reader op := by
            cases l <;> simp [isReader] at hrd
            exact ⟨_, rfl⟩
          rcases reader_work (Nat.le_refl _) hQ.2 hQ.1 hs with h | h | ⟨-, h2, h3, h4⟩
          · exact absurd (hn _) h
          · exact .inl h
          · exact .inr ⟨⟨h3, Nat.le_trans h2 hQ.2⟩, Nat.le_of_lt h4, fun _ => h4⟩
        | false =>
          rcases others_pos hQ.1 (hq m hm) hrd
            (fun w src hc => ht m (Nat.le_trans h1 hm) w src (hc ▸ hl)) hs with h | ⟨-, h2, h3, h4, h5, h6⟩
          · exact absurd (hn _) h
          · refine .inr ⟨⟨h3, Nat.le_trans h2 hQ.2⟩, ?_, fun hc => absurd hc.1 (by simp)⟩
            unfold rWork
            rw [h4, h5]
            omega)
      (fun k hk hQ => by
        obtain ⟨m, hm, hfree⟩ := lock_free hf hr hn k
        obtain ⟨op, s1, hs, -⟩ := reader_progress (exec_reach hr m) (hn m) (hQ m hm).1 (.inl hfree)
        refine ⟨m, hm, .reader op, s1, ⟨rfl, ?_⟩, hs⟩
        cases op <;> try rfl
        all_goals
          exfalso
          have hQ1 := (hQ m hm).1
          conn_lab hs
          all_goals simp_all [rRest])
      (Nat.le_refl _) ⟨hx, by omega⟩
    exact ⟨m, by omega, g2⟩

end Verif.Lemmas.Conn
