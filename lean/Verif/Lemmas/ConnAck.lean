import Verif.Lemmas.ConnWire

/-
Invariants of the connection machine: whose command a control byte is credited to.
-/

set_option linter.unusedSimpArgs false
set_option maxHeartbeats 4000000

namespace Verif.Lemmas.Conn

open Verif.Go Verif.Model Verif.Model.Conn Verif.Spec

/-- Request of a writer between setting `lastCommand` and the result. -/
def wHas : WriterAt → Option Nat
  | .timer u | .spawn u | .write u | .unlock u | .await u => some u
  | _ => none

/-- Request for which the reader offers a control byte. -/
def rAck : ReaderAt → Option Nat
  | .scanSend _ u => some u
  | _ => none

@[simp] theorem rAck_forget (r : ReaderAt) (u : Nat) : rAck (r.forget u) = rAck r := by
  cases r <;> rfl

theorem rAck_crit {r : ReaderAt} {u : Nat} (h : rAck r = some u) : sCrit r = true := by
  cases r <;> simp_all [rAck, sCrit]

structure AckInv (s : St) : Prop where
  last : s.nWriter ≤ 1 → ∀ w v, wHas (s.writer w) = some v → s.lastCommand = some v
  send : ∀ u, rAck s.reader = some u → s.lastCommand = some u ∨ s.lastCommand = none

theorem ack_step {lv : LoopVars} {s s' : St} {l : Label} (hf : Fresh s) (hl : LockInv s)
    (hi : AckInv s) (h : step lv s l = some s') : AckInv s' := by
  have f1 := hf.writer
  obtain ⟨h1, h2, h3, h4⟩ := hl
  clear hf
  obtain ⟨k1, k2⟩ := hi
  have f2 : s.nWriter ≤ 1 → ∀ w w', s.writer w ≠ .absent → s.writer w' ≠ .absent → w = w' := by
    intro hn w w' hw hw'
    have a1 : ¬ s.nWriter ≤ w := fun h => hw (f1 w h)
    have a2 : ¬ s.nWriter ≤ w' := fun h => hw' (f1 w' h)
    omega
  conn_step h
  all_goals conn_facts2 s
  all_goals try have qak := congrArg rAck (by assumption : s.reader = _)
  all_goals try conv at qak => rhs; whnf
  all_goals constructor
  all_goals first
    | assumption
    | grind [upd, wHas, rAck, rAck_forget, → rAck_crit, wCrit]

theorem ackInv {lv : LoopVars} {s : St} (h : Reachable lv s) : AckInv s :=
  reach_induct (P := AckInv) (by constructor <;> simp [init, wHas, rAck])
    (fun _ _ _ hr hp hs => ack_step (fresh hr) (lockInv hr) hp hs) s h

end Verif.Lemmas.Conn
