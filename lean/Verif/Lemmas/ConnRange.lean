import Verif.Lemmas.Conn

/-
Invariant of the connection machine: every request mentioned anywhere has been submitted.
-/

set_option linter.unusedSimpArgs false
set_option maxHeartbeats 4000000

namespace Verif.Lemmas.Conn

open Verif.Go Verif.Model Verif.Model.Conn

/-- The request a writer handles. -/
def wReq : WriterAt → Option Nat
  | .lock u | .clear u | .insert u | .inserting u | .setLast u | .timer u | .spawn u | .write u
  | .unlock u | .await u | .reset u => some u
  | .absent | .idle => none
/-- The request a timeout worker handles. -/
def tReq : TimerAt → Option Nat
  | .sleep u | .look u | .deleting u | .closing u _ | .unlock u => some u
  | .absent => none
/-- The request the reader handles. -/
def rReq : ReaderAt → Option Nat
  | .scanLock _ u | .scanTest _ u | .scanSend _ u | .scanNak _ u | .scanDeleting _ u
  | .scanClosing _ u _ | .scanCan _ u | .scanUnlock _ u => some u
  | .frameMatch _ u | .frameOpen _ u | .frameSend _ u | .frameClosing _ u _ | .frameDelete _ u
  | .frameDeleting _ u => some u
  | _ => none
/-- The frame the reader is matching. -/
def rScope : ReaderAt → Option Scope
  | .frameNext c | .frameMatch c _ | .frameOpen c _ | .frameSend c _ | .frameClosing c _ _
  | .frameDelete c _ | .frameDeleting c _ | .frameUnlock c => some c
  | _ => none
/-- The scan the reader is doing. -/
def rScan : ReaderAt → Option Scan
  | .scanNext c | .scanLock c _ | .scanTest c _ | .scanSend c _ | .scanNak c _
  | .scanDeleting c _ | .scanClosing c _ _ | .scanCan c _ | .scanUnlock c _ => some c
  | _ => none

@[simp] theorem rReq_forget (r : ReaderAt) (u : Nat) : rReq (r.forget u) = rReq r := by
  cases r <;> rfl
@[simp] theorem rScope_forget (r : ReaderAt) (u : Nat) : rScope (r.forget u) = rScope r := by
  cases r <;> rfl

/-- Facts about the goroutine that moved, as ground terms for `grind`. -/
syntax "conn_facts " term:max : tactic
macro_rules
  | `(tactic| conn_facts $s) => `(tactic| (
      try have qw := congrArg wReq (by assumption : St.writer $s _ = _)
      try have qt := congrArg tReq (by assumption : St.timer $s _ = _)
      try have qr := congrArg rReq (by assumption : St.reader $s = _)
      try have qs := congrArg rScope (by assumption : St.reader $s = _)
      try have qc := congrArg rScan (by assumption : St.reader $s = _)
      try conv at qw => rhs; whnf
      try conv at qt => rhs; whnf
      try conv at qr => rhs; whnf
      try conv at qs => rhs; whnf
      try conv at qc => rhs; whnf))

/-- Every request mentioned anywhere has been submitted. -/
structure RangeInv (s : St) : Prop where
  inFlight : ∀ u ∈ s.inFlight, u < s.nReq
  writer : ∀ w u, wReq (s.writer w) = some u → u < s.nReq
  result : ∀ w u, s.result w = .waiting u → u < s.nReq
  timer : ∀ t u, tReq (s.timer t) = some u → u < s.nReq
  sending : ∀ i u, s.resend i = .sending u → u < s.nReq
  direct : ∀ i u, s.resend i = .sleep (.direct u) → u < s.nReq
  loopVar : ∀ i l, s.resend i = .sleep (.loopVar l) → s.loopVar l < s.nReq
  reader : ∀ u, rReq s.reader = some u → u < s.nReq
  todo : ∀ c, rScope s.reader = some c → ∀ u ∈ c.todo, u < s.nReq
  readerLoop : ∀ c u, rReq s.reader = some u → rScan s.reader = some c → s.loopVar c.loop = u
  last : ∀ u, s.lastCommand = some u → u < s.nReq

theorem range_init : RangeInv init := by
  constructor <;> simp [init, wReq, tReq, rReq, rScope]

theorem rScan_forget {r : ReaderAt} {u : Nat} {c : Scan} (h : rScan (r.forget u) = some c) :
    ∃ c', rScan r = some c' ∧ c'.loop = c.loop ∧ c'.byte = c.byte ∧ c'.msg = c.msg := by
  cases r <;> simp [ReaderAt.forget, rScan] at h ⊢ <;> subst h <;> simp

theorem mem_insertKey {l : List Nat} {u v : Nat} : v ∈ insertKey l u ↔ v = u ∨ v ∈ l := by
  unfold insertKey; split
  · constructor
    · exact .inr
    · rintro (rfl | h) <;> assumption
  · simp [or_comm]

theorem range_step {lv : LoopVars} {s s' : St} {l : Label} (hf : Fresh s)
    (hi : RangeInv s) (h : step lv s l = some s') : RangeInv s' := by
  have f5 := hf.client
  clear hf
  obtain ⟨k1, k2, k3, k4, k5, k6, k7, k8, k9, k10, k11⟩ := hi
  conn_step h
  all_goals conn_facts s
  all_goals constructor
  all_goals first
    | assumption
    | grind [St.crash, upd, wReq, tReq, rReq, rScope, rScan, rReq_forget, rScope_forget, → rScan_forget, mem_insertKey, ReaderAt.forget]

theorem range {lv : LoopVars} {s : St} (h : Reachable lv s) : RangeInv s :=
  reach_induct (P := RangeInv) range_init (fun _ _ _ hr hp hs => range_step (fresh hr) hp hs) s h

end Verif.Lemmas.Conn
