import Verif.Lemmas.ConnHist

/-
Invariants of the connection machine: open requests are on their way into the table, in the table,
or being closed, and have a timeout worker; what matching a frame does to the table.
-/

set_option linter.unusedSimpArgs false
set_option maxHeartbeats 4000000

namespace Verif.Lemmas.Conn

open Verif.Go Verif.Model Verif.Model.Conn Verif.Spec

/-- The request a writer has taken but not put into the table yet. -/
def wPre : WriterAt → Option Nat
  | .lock u | .clear u | .insert u | .inserting u => some u
  | _ => none
/-- The request a writer has taken but not started a timeout worker for yet. -/
def wPreT : WriterAt → Option Nat
  | .lock u | .clear u | .insert u | .inserting u | .setLast u | .timer u => some u
  | _ => none
/-- The request a writer has put into the table under the lock it still holds. -/
def wIn : WriterAt → Option Nat
  | .setLast u | .timer u | .spawn u | .write u | .unlock u => some u
  | _ => none
/-- The request a timeout worker is still going to close. -/
def tLive : TimerAt → Option Nat
  | .sleep u | .look u | .deleting u | .closing u _ => some u
  | _ => none
/-- The request the reader matches, until it is removed. -/
def rCur : ReaderAt → Option Nat
  | .frameMatch _ u | .frameOpen _ u | .frameSend _ u | .frameClosing _ u _ | .frameDelete _ u
  | .frameDeleting _ u => some u
  | _ => none
/-- The request the reader is going to remove. -/
def rGone : ReaderAt → Option (Scope × Nat)
  | .frameOpen c u | .frameSend c u | .frameClosing c u _ | .frameDelete c u
  | .frameDeleting c u => some (c, u)
  | _ => none

@[simp] theorem rCur_forget (r : ReaderAt) (u : Nat) : rCur (r.forget u) = rCur r := by
  cases r <;> rfl
@[simp] theorem rGone_forget (r : ReaderAt) (u : Nat) : rGone (r.forget u) = rGone r := by
  cases r <;> rfl

theorem wIn_crit {x : WriterAt} {u : Nat} (h : wIn x = some u) : wCrit x = true ∧ wReq x = some u := by
  cases x <;> simp_all [wIn, wCrit, wReq]
theorem rCur_crit {r : ReaderAt} {u : Nat} (h : rCur r = some u) :
    fCrit r = true ∧ rReq r = some u := by
  cases r <;> simp_all [rCur, fCrit, rReq]
theorem rScope_crit {r : ReaderAt} {c : Scope} (h : rScope r = some c) : fCrit r = true := by
  cases r <;> simp_all [rScope, fCrit]
theorem rGone_crit {r : ReaderAt} {c : Scope} {u : Nat} (h : rGone r = some (c, u)) :
    fCrit r = true ∧ rReq r = some u ∧ rScope r = some c := by
  cases r <;> simp_all [rGone, fCrit, rReq, rScope]

/-- Some writer has taken `u` but not put it into the table yet. -/
def InPre (f : Nat → WriterAt) (u : Nat) : Prop := ∃ w, wPre (f w) = some u
/-- Some writer has taken `u` but not started a timeout worker yet. -/
def InPreT (f : Nat → WriterAt) (u : Nat) : Prop := ∃ w, wPreT (f w) = some u
/-- Some timeout worker is still going to close `u`. -/
def Live (f : Nat → TimerAt) (u : Nat) : Prop := ∃ t, tLive (f t) = some u

theorem exists_upd {α : Type} {g : α → Option Nat} {f : Nat → α} {a u : Nat} {v : α} :
    ((∃ w, g (f w) = some u) → (g (f a) = some u → g v = some u) → ∃ w, g (upd f a v w) = some u) ∧
    (g v = some u → ∃ w, g (upd f a v w) = some u) := by
  constructor
  · rintro ⟨w, hw⟩ h
    by_cases hwa : w = a
    · subst hwa; exact ⟨w, by rw [upd_same]; exact h hw⟩
    · exact ⟨w, by rw [upd_apply, if_neg hwa]; exact hw⟩
  · intro h; exact ⟨a, by rw [upd_same]; exact h⟩

theorem inPre_upd {f : Nat → WriterAt} {a u : Nat} {v : WriterAt} :
    (InPre f u → (wPre (f a) = some u → wPre v = some u) → InPre (upd f a v) u) ∧
    (wPre v = some u → InPre (upd f a v) u) := exists_upd
theorem inPreT_upd {f : Nat → WriterAt} {a u : Nat} {v : WriterAt} :
    (InPreT f u → (wPreT (f a) = some u → wPreT v = some u) → InPreT (upd f a v) u) ∧
    (wPreT v = some u → InPreT (upd f a v) u) := exists_upd
theorem live_upd {f : Nat → TimerAt} {a u : Nat} {v : TimerAt} :
    (Live f u → (tLive (f a) = some u → tLive v = some u) → Live (upd f a v) u) ∧
    (tLive v = some u → Live (upd f a v) u) := exists_upd
theorem inPre_intro {f : Nat → WriterAt} {w u : Nat} (h : wPre (f w) = some u) : InPre f u := ⟨w, h⟩

grind_pattern inPre_upd => InPre (upd f a v) u
grind_pattern inPreT_upd => InPreT (upd f a v) u
grind_pattern live_upd => Live (upd f a v) u

/-- Where an open request can be. -/
structure OpenInv (s : St) : Prop where
  place : ∀ u, s.field u = true → s.client u = .sending ∨ InPre s.writer u ∨
    u ∈ s.inFlight ∨ ∃ a, closingOf s = some (u, a)
  timed : ∀ t u, tReq (s.timer t) = some u → s.field u = true →
    u ∈ s.inFlight ∨ ∃ a, closingOf s = some (u, a)
  wIn : ∀ w u, wIn (s.writer w) = some u → u ∈ s.inFlight

theorem open_init : OpenInv init := by
  constructor <;> simp [init, tReq, wIn]

theorem mem_filter_ne {l : List Nat} {u v : Nat} : v ∈ l.filter (· != u) ↔ v ∈ l ∧ v ≠ u := by
  simp

/-- More ground terms. -/
syntax "conn_facts2 " term:max : tactic
macro_rules
  | `(tactic| conn_facts2 $s) => `(tactic| (
      conn_facts $s
      try have qp := congrArg wPre (by assumption : St.writer $s _ = _)
      try conv at qp => rhs; whnf
      try have qi := congrArg wIn (by assumption : St.writer $s _ = _)
      try conv at qi => rhs; whnf
      try have qwc := congrArg wCrit (by assumption : St.writer $s _ = _)
      try conv at qwc => rhs; whnf
      try have qtc := congrArg tCrit (by assumption : St.timer $s _ = _)
      try conv at qtc => rhs; whnf
      try have qtl := congrArg tClosing (by assumption : St.timer $s _ = _)
      try conv at qtl => rhs; whnf
      try have qrl := congrArg rClosing (by assumption : St.reader $s = _)
      try conv at qrl => rhs; whnf
      try have qsc := congrArg sCrit (by assumption : St.reader $s = _)
      try conv at qsc => rhs; whnf
      try have qfc := congrArg fCrit (by assumption : St.reader $s = _)
      try conv at qfc => rhs; whnf))

theorem open_step {lv : LoopVars} {s s' : St} {l : Label} (hf : Fresh s) (hl : LockInv s)
    (hc : ChanInv s) (hr : RangeInv s)
    (hi : OpenInv s) (h : step lv s l = some s') : OpenInv s' := by
  have c1 := hc.closing
  have c2 := hc.clearing
  have c3 := hc.frameDel
  have f1 := hf.writer
  have f3 := hf.timer
  have f5 := hf.client
  have r1 := hr.timer
  have r2 := hr.writer
  clear hf hc hr
  obtain ⟨h1, h2, h3, h4⟩ := hl
  obtain ⟨k1, k2, k3⟩ := hi
  conn_step h
  all_goals conn_facts2 s
  all_goals constructor
  all_goals first
    | assumption
    | grind [upd, closingOf, tClosing, rClosing, rClosing_forget, wPre, wIn, wReq, tReq, mem_insertKey, List.mem_filter, → wIn_crit, Req.hasChan, rFrameDel, wCrit, tCrit]

theorem openInv {lv : LoopVars} {s : St} (h : Reachable lv s) : OpenInv s :=
  reach_induct (P := OpenInv) open_init
    (fun _ _ _ hr hp hs => open_step (fresh hr) (lockInv hr) (chan hr) (range hr) hp hs) s h

/-- An open request with a timeout is waiting to be transmitted or has a timeout worker. -/
def TimedInv (s : St) : Prop :=
  ∀ u, s.field u = true → (s.req u).timeout = true → s.client u = .sending ∨
    InPreT s.writer u ∨ Live s.timer u

theorem timed_step {lv : LoopVars} {s s' : St} {l : Label} (hl : LockInv s)
    (hf : Fresh s) (hc : ChanInv s) (ho : OpenInv s)
    (hi : TimedInv s) (h : step lv s l = some s') : TimedInv s' := by
  have c1 := hc.closing
  have c2 := hc.clearing
  have f1 := hf.writer
  have f3 := hf.timer
  have o2 := ho.timed
  have h2 := hl.t
  clear hf hc hl ho
  unfold TimedInv at *
  conn_step h
  all_goals conn_facts2 s
  all_goals first
    | assumption
    | grind [upd, closingOf, tClosing, wPreT, tLive, tReq, tCrit]

theorem timedInv {lv : LoopVars} {s : St} (h : Reachable lv s) : TimedInv s :=
  reach_induct (P := TimedInv) (by intro u h; cases h)
    (fun _ _ _ hr hp hs => timed_step (lockInv hr) (fresh hr) (chan hr) (openInv hr) hp hs) s h

/-- While a frame is matched: the table only shrinks, and requests already visited are gone and
closed exactly if they match. -/
structure FrameInv (s : St) : Prop where
  sub : ∀ c, rScope s.reader = some c → ∀ v ∈ s.inFlight, v ∈ c.orig
  todo : ∀ c, rScope s.reader = some c → ∀ v ∈ c.todo, v ∈ s.inFlight
  cur : ∀ v, rCur s.reader = some v → v ∈ s.inFlight
  curTodo : ∀ c v, rScope s.reader = some c → rCur s.reader = some v → v ∉ c.todo
  gone : ∀ c v, rGone s.reader = some (c, v) → (s.req v).pkg.match_ c.buf.vis = .ok true
  visited : ∀ c, rScope s.reader = some c → ∀ v ∈ c.orig, v ∉ c.todo → rCur s.reader ≠ some v →
    ((s.req v).pkg.match_ c.buf.vis = .ok true ∧ v ∉ s.inFlight ∧ s.field v = false) ∨
    ((s.req v).pkg.match_ c.buf.vis = .ok false ∧ v ∈ s.inFlight)
  origRange : ∀ c, rScope s.reader = some c → ∀ v ∈ c.orig, v < s.nReq

theorem frame_init : FrameInv init := by
  constructor <;> simp [init, rScope, rCur, rGone]

theorem rCur_scope {r : ReaderAt} {u : Nat} (h : rCur r = some u) : ∃ c, rScope r = some c := by
  cases r <;> simp_all [rCur, rScope]

theorem frame_step {lv : LoopVars} {s s' : St} {l : Label} (hl : LockInv s)
    (hc : ChanInv s) (hr : RangeInv s)
    (hi : FrameInv s) (h : step lv s l = some s') : FrameInv s' := by
  have c3 := hc.frameDel
  have r1 := hr.inFlight
  have r2 := hr.reader
  clear hc hr
  obtain ⟨h1, h2, h3, h4⟩ := hl
  obtain ⟨k1, k2, k3, k4, k5, k6, k7⟩ := hi
  conn_step h
  all_goals conn_facts2 s
  all_goals try have qcu := congrArg rCur (by assumption : s.reader = _)
  all_goals try conv at qcu => rhs; whnf
  all_goals try have qgo := congrArg rGone (by assumption : s.reader = _)
  all_goals try conv at qgo => rhs; whnf
  all_goals constructor
  all_goals first
    | assumption
    | grind [upd, rScope, rCur, rGone, rScope_forget, rCur_forget, rGone_forget, mem_insertKey, List.mem_filter, → rCur_crit, → rScope_crit, → rGone_crit, rFrameDel, → rCur_scope, wCrit, tCrit]

theorem frameInv {lv : LoopVars} {s : St} (h : Reachable lv s) : FrameInv s :=
  reach_induct (P := FrameInv) frame_init
    (fun _ _ _ hr hp hs => frame_step (lockInv hr) (chan hr) (range hr) hp hs) s h

end Verif.Lemmas.Conn
