import Verif.Lemmas.ConnTable

/-
Invariants of the connection machine: requests that were never resent enter the table once.
-/

set_option linter.unusedSimpArgs false
set_option maxHeartbeats 4000000

namespace Verif.Lemmas.Conn

open Verif.Go Verif.Model Verif.Model.Conn Verif.Spec

/-- Request `u` was offered again by a resend goroutine. -/
def Resent (u : Nat) (h : List Ev) : Prop := Ev.resend u ∈ h

theorem resent_cons {u : Nat} {e : Ev} {h : List Ev} :
    Resent u (e :: h) ↔ e = .resend u ∨ Resent u h := by
  simp [Resent, eq_comm]

/-- The request whose completion by a frame is being finished (channel check onwards). -/
def rEnding : ReaderAt → Option Nat
  | .frameClosing _ u _ => some u
  | .frameDelete _ u => some u
  | .frameDeleting _ u => some u
  | _ => none

@[simp] theorem rEnding_forget (r : ReaderAt) (u : Nat) : rEnding (r.forget u) = rEnding r := by
  cases r <;> rfl

/-- The stages of request `u`, for a request that was never resent: offered, then taken by one
writer, then in the table. -/
structure OnceInv (u : Nat) (s : St) : Prop where
  sendPre : ∀ w, s.client u = .sending → wPre (s.writer w) ≠ some u
  uniq : ∀ w w', wPre (s.writer w) = some u → wPre (s.writer w') = some u → w = w'
  inFlight : u ∈ s.inFlight → s.client u ≠ .sending ∧ ∀ w, wPre (s.writer w) ≠ some u
  reader : rReq s.reader = some u → s.client u ≠ .sending ∧ ∀ w, wPre (s.writer w) ≠ some u
  timer : ∀ t, tReq (s.timer t) = some u →
    s.client u ≠ .sending ∧ ∀ w, wPre (s.writer w) ≠ some u
  closed : s.closed u = true → s.client u ≠ .sending ∧ ∀ w, wPre (s.writer w) ≠ some u
  resend : ∀ i, s.resend i ≠ .sending u
  gone : s.closed u = true → u ∈ s.inFlight → rEnding s.reader = some u

theorem once_init (u : Nat) : OnceInv u init := by
  constructor <;> simp [init, wPre, rReq, tReq]

theorem wPre_req {x : WriterAt} {u : Nat} (h : wPre x = some u) : wReq x = some u := by
  cases x <;> simp_all [wPre, wReq]

/-- The request being closed because of a NAK. -/
def rNakClosing : ReaderAt → Option Nat
  | .scanClosing _ u _ => some u
  | _ => none

@[simp] theorem rNakClosing_forget (r : ReaderAt) (u : Nat) :
    rNakClosing (r.forget u) = rNakClosing r := by
  cases r <;> rfl

/-- Requests being closed by a timeout worker or by a NAK are out of the table. -/
structure CloseOut (s : St) : Prop where
  t : ∀ t u a, tClosing (s.timer t) = some (u, a) → u ∉ s.inFlight
  r : ∀ u, rNakClosing s.reader = some u → u ∉ s.inFlight

theorem tClosing_crit {x : TimerAt} {u : Nat} {a : CloseAt} (h : tClosing x = some (u, a)) :
    tCrit x = true ∧ tReq x = some u := by
  cases x <;> simp_all [tClosing, tCrit, tReq]

theorem rNakClosing_crit {r : ReaderAt} {u : Nat} (h : rNakClosing r = some u) :
    sCrit r = true ∧ rReq r = some u := by
  cases r <;> simp_all [rNakClosing, sCrit, rReq]

theorem closeOut_step {lv : LoopVars} {s s' : St} {l : Label} (hl : LockInv s)
    (hi : CloseOut s) (h : step lv s l = some s') : CloseOut s' := by
  obtain ⟨h1, h2, h3, h4⟩ := hl
  obtain ⟨k1, k2⟩ := hi
  conn_step h
  all_goals conn_facts2 s
  all_goals try have qnk := congrArg rNakClosing (by assumption : s.reader = _)
  all_goals try conv at qnk => rhs; whnf
  all_goals constructor
  all_goals first
    | assumption
    | grind [upd, tClosing, mem_insertKey, → tClosing_crit, → rNakClosing_crit, wCrit, tCrit, rNakClosing, rNakClosing_forget]

theorem closeOut {lv : LoopVars} {s : St} (h : Reachable lv s) : CloseOut s :=
  reach_induct (P := CloseOut) (by constructor <;> simp [init, tClosing, rNakClosing])
    (fun _ _ _ hr hp hs => closeOut_step (lockInv hr) hp hs) s h

theorem rEnding_crit {r : ReaderAt} {u : Nat} (h : rEnding r = some u) :
    fCrit r = true ∧ rReq r = some u := by
  cases r <;> simp_all [rEnding, fCrit, rReq]

theorem resent_mono {lv : LoopVars} {s s' : St} {l : Label} {u : Nat}
    (h : step lv s l = some s') (hn : ¬ Resent u s'.hist) : ¬ Resent u s.hist := by
  intro hc
  apply hn
  conn_step h
  all_goals first
    | assumption
    | simp [Resent] at hc ⊢ <;> exact hc
    | (simp only [Resent] at hc ⊢; simp [hc])

theorem once_step {lv : LoopVars} {s s' : St} {l : Label} {u : Nat} (hf : Fresh s) (hl : LockInv s)
    (hc : ChanInv s) (hr : RangeInv s) (hfr : FrameInv s) (ho : OpenInv s) (hco : CloseOut s)
    (hi : ¬ Resent u s.hist → OnceInv u s) (h : step lv s l = some s')
    (hn : ¬ Resent u s'.hist) : OnceInv u s' := by
  have hi := hi (resent_mono h hn)
  have f1 := hf.writer
  have f5 := hf.client u
  have r1 := hr.inFlight u
  have r2 := fun w => hr.writer w u
  have r3 := fun w => hr.timer w u
  have r4 := hr.reader u
  have r5 := fun i => hr.sending i u
  have c9 := hc.fresh u
  have fr2 := hfr.todo
  have o3 := fun w => ho.wIn w u
  have co1 := fun t => hco.t t u
  have co2 := hco.r u
  clear hf hc hr hfr ho hco
  obtain ⟨h1, h2, h3, h4⟩ := hl
  obtain ⟨k1, k2, k3, k4, k5, k6, k7, k8⟩ := hi
  conn_step h
  all_goals conn_facts2 s
  all_goals try have qcu := congrArg rCur (by assumption : s.reader = _)
  all_goals try conv at qcu => rhs; whnf
  all_goals try have qnk := congrArg rNakClosing (by assumption : s.reader = _)
  all_goals try conv at qnk => rhs; whnf
  all_goals try have qen := congrArg rEnding (by assumption : s.reader = _)
  all_goals try conv at qen => rhs; whnf
  all_goals simp only [resent_cons, not_or] at hn
  all_goals constructor
  all_goals first
    | assumption
    | grind [upd, wPre, tReq, rReq, rReq_forget, rEnding, rEnding_forget, mem_insertKey, → rEnding_crit, → wPre_req, wCrit, tCrit, tClosing]

theorem onceInv {lv : LoopVars} {s : St} {u : Nat} (h : Reachable lv s)
    (hn : ¬ Resent u s.hist) : OnceInv u s :=
  reach_induct (P := fun s => ¬ Resent u s.hist → OnceInv u s) (fun _ => once_init u)
    (fun _ _ _ hr hp hs => once_step (fresh hr) (lockInv hr) (chan hr) (range hr) (frameInv hr)
      (openInv hr) (closeOut hr) hp hs) s h hn

end Verif.Lemmas.Conn
