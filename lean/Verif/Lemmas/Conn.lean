import Verif.Model.Conn
import Verif.Lemmas.Panics

/-
Invariants of the connection machine: mutual exclusion, the map-write flag, fresh identifiers.
-/

set_option linter.unusedSimpArgs false
set_option maxHeartbeats 4000000

namespace Verif.Lemmas.Conn

open Verif.Go Verif.Model Verif.Model.Conn

/-- The writer holds the lock. -/
def wCrit : WriterAt → Bool
  | .clear _ | .insert _ | .inserting _ | .setLast _ | .timer _ | .spawn _ | .write _ | .unlock _ => true
  | _ => false

/-- The timeout worker holds the lock. -/
def tCrit : TimerAt → Bool
  | .look _ | .deleting _ | .closing _ _ | .unlock _ => true
  | _ => false

/-- The reader holds the lock by `RLock`. -/
def sCrit : ReaderAt → Bool
  | .scanTest _ _ | .scanSend _ _ | .scanNak _ _ | .scanDeleting _ _ | .scanClosing _ _ _
  | .scanCan _ _ | .scanUnlock _ _ => true
  | _ => false

/-- The reader holds the lock by `Lock`. -/
def fCrit : ReaderAt → Bool
  | .frameNext _ | .frameMatch _ _ | .frameOpen _ _ | .frameSend _ _ | .frameClosing _ _ _
  | .frameDelete _ _ | .frameDeleting _ _ | .frameUnlock _ => true
  | _ => false

/-- Identifiers that have not been handed out are unused. -/
structure Fresh (s : St) : Prop where
  writer : ∀ w, s.nWriter ≤ w → s.writer w = .absent
  result : ∀ w, s.nWriter ≤ w → s.result w = .absent
  timer : ∀ t, s.nTimer ≤ t → s.timer t = .absent
  resend : ∀ t, s.nResend ≤ t → s.resend t = .absent
  client : ∀ u, s.nReq ≤ u → s.client u = .done
  field : ∀ u, s.nReq ≤ u → s.field u = false

/-- Who holds the lock is where the lock is held. -/
structure LockInv (s : St) : Prop where
  w : ∀ w, wCrit (s.writer w) = true ↔ s.lock = some (.writer w)
  t : ∀ t, tCrit (s.timer t) = true ↔ s.lock = some (.timer t)
  rs : sCrit s.reader = true ↔ s.lock = some .scan
  rf : fCrit s.reader = true ↔ s.lock = some .frame

@[simp] theorem upd_same {α : Type} (f : Nat → α) (i : Nat) (v : α) : upd f i v i = v := by
  simp [upd]
theorem upd_apply {α : Type} (f : Nat → α) (i : Nat) (v : α) (j : Nat) :
    upd f i v j = if j = i then v else f j := rfl

@[simp] theorem sCrit_forget (r : ReaderAt) (u : Nat) : sCrit (r.forget u) = sCrit r := by
  cases r <;> rfl
@[simp] theorem fCrit_forget (r : ReaderAt) (u : Nat) : fCrit (r.forget u) = fCrit r := by
  cases r <;> rfl

theorem fresh_init : Fresh init := by constructor <;> intros <;> rfl
theorem lock_init : LockInv init := by constructor <;> simp [init, wCrit, tCrit, sCrit, fCrit]

theorem run_append {lv : LoopVars} {s : St} {a b : List Label} :
    run lv s (a ++ b) = (run lv s a).bind fun s' => run lv s' b := by
  induction a generalizing s with
  | nil => rfl
  | cons l a ih =>
    simp only [List.cons_append, run]
    cases step lv s l with
    | none => rfl
    | some s' => exact ih

theorem reachable_init (lv : LoopVars) : Reachable lv init := ⟨[], rfl⟩

theorem reachable_step {lv : LoopVars} {s s' : St} {l : Label} (h : Reachable lv s)
    (hs : step lv s l = some s') : Reachable lv s' := by
  obtain ⟨ls, h⟩ := h
  refine ⟨ls ++ [l], ?_⟩
  rw [run_append, h]
  simp [run, hs]

theorem reachable_run {lv : LoopVars} {s s' : St} {ls : List Label} (h : Reachable lv s)
    (hs : run lv s ls = some s') : Reachable lv s' := by
  obtain ⟨l0, h⟩ := h
  exact ⟨l0 ++ ls, by rw [run_append, h]; exact hs⟩

/-- Induction over executions. -/
theorem reach_induct {lv : LoopVars} {P : St → Prop} (h0 : P init)
    (hstep : ∀ s l s', Reachable lv s → P s → step lv s l = some s' → P s') :
    ∀ s, Reachable lv s → P s := by
  rintro s ⟨ls, h⟩
  have : ∀ ls s0 s, Reachable lv s0 → P s0 → run lv s0 ls = some s → P s := by
    intro ls
    induction ls with
    | nil => intro s0 s _ hp h; cases h; exact hp
    | cons l ls ih =>
      intro s0 s hr hp h
      simp only [run] at h
      cases hl : step lv s0 l with
      | none => rw [hl] at h; cases h
      | some s1 =>
        rw [hl] at h
        exact ih s1 s (reachable_step hr hl) (hstep s0 l s1 hr hp hl) h
  exact this ls init s (reachable_init lv) h0 h

/-- Case analysis on the step taken: one goal per line of the machine, with the successor state
substituted. -/
syntax "conn_step " ident : tactic
macro_rules
  | `(tactic| conn_step $h) => `(tactic| (
      unfold step at $h:ident
      split at $h:ident
      · cases $h:ident
      split at $h:ident <;>
        simp only [submit, clientStep, takeStep, writerStep, resultTimeoutStep, timerStep, resendStep,
          connectStep, readerStep, closeStep, St.crash] at $h:ident
      all_goals repeat' split at $h:ident
      all_goals try injection $h:ident with $h:ident
      all_goals try subst $h:ident
      all_goals try (cases $h:ident; done)))

theorem fresh_step {lv : LoopVars} {s s' : St} {l : Label} (hi : Fresh s)
    (h : step lv s l = some s') : Fresh s' := by
  obtain ⟨h1, h2, h3, h4, h5, h6⟩ := hi
  conn_step h
  all_goals (constructor <;> grind [St.crash, upd])

theorem fresh {lv : LoopVars} {s : St} (h : Reachable lv s) : Fresh s :=
  reach_induct (P := Fresh) fresh_init (fun _ _ _ _ hp hs => fresh_step hp hs) s h

theorem lock_step {lv : LoopVars} {s s' : St} {l : Label} (hf : Fresh s) (hi : LockInv s)
    (h : step lv s l = some s') : LockInv s' := by
  obtain ⟨f1, f2, f3, f4, f5, f6⟩ := hf
  obtain ⟨h1, h2, h3, h4⟩ := hi
  conn_step h
  all_goals (constructor <;> grind [St.crash, upd, wCrit, tCrit, sCrit, fCrit, sCrit_forget, fCrit_forget])

theorem lockInv {lv : LoopVars} {s : St} (h : Reachable lv s) : LockInv s :=
  reach_induct (P := LockInv) lock_init (fun _ _ _ hr hp hs => lock_step (fresh hr) hp hs) s h

/-! ### panics of the byte-level code, in a form `grind` can use -/

theorem nsp_err {d : List UInt8} {e : UInt8} {p : Panic} (h : newSendPackage d e = .error p) :
    False := by
  obtain ⟨q, hq, -⟩ := newSendPackage_ok d e
  rw [hq] at h; cases h

theorem iter_err {b : Slice} {p : Panic} (h : iter b = .error p) (hb : ¬ b.len = 0) :
    p = .index ∨ p = .slice := bounds_iter (len_ne_zero hb) p h

theorem match_err {q : Pkg} {m : List UInt8} {p : Panic} (h : q.match_ m = .error p) :
    p = .index ∨ p = .slice := bounds_match q m p h

end Verif.Lemmas.Conn
