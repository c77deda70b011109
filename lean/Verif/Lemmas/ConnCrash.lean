import Verif.Lemmas.ConnHist
import Verif.Lemmas.ConnRelease

/-
Why a connection's process dies: invariants for C83 and C84.
-/

set_option linter.unusedSimpArgs false
set_option maxHeartbeats 4000000

namespace Verif.Lemmas.Conn

open Verif.Go Verif.Model Verif.Model.Conn Verif.Spec

/-- The message of a control byte is what parsing the whole buffer gives, from the control byte on. -/
def CtrlFrom (b : UInt8) (msg : Option Message) : Prop :=
  ∃ rest sp r, newMessage ⟨b :: rest, sp⟩ = .ok r ∧ msg = r.toOption

def ActFrom : Act → Prop
  | .ctrl b msg => CtrlFrom b msg
  | _ => True

theorem iter_actFrom {buf rest : Slice} {as : List Act} (h : iter buf = .ok (.done as rest))
    (hb : ¬ buf.len = 0) : ∀ a ∈ as, ActFrom a := by
  obtain ⟨v, sp⟩ := buf
  have hs := iter_spec v sp (len_ne_zero hb)
  rw [h] at hs
  have hc : ∀ m a, a ∈ callbackOf m → ActFrom a := by
    intro m a ha
    unfold callbackOf at ha
    repeat' split at ha
    all_goals simp at ha
    subst ha; trivial
  intro a ha
  cases hs with
  | ctrl b rest m h1 h2 h3 =>
    rcases List.mem_append.1 ha with ha | ha
    · simp at ha; subst ha
      obtain ⟨r, hr, hm⟩ := h3
      exact ⟨rest, sp, r, h1 ▸ hr, hm⟩
    · exact hc _ _ ha
  | frame L ck body tail m h1 h2 h3 h4 =>
    rcases List.mem_append.1 ha with ha | ha
    · rcases List.mem_append.1 ha with ha | ha
      · simp at ha; subst ha; trivial
      · exact hc _ _ ha
    · simp at ha; subst ha; trivial

/-- Past the first look at the message of a control byte. -/
def rLooked : ReaderAt → Option Scan
  | .scanDeleting c _ | .scanClosing c _ _ | .scanCan c _ => some c
  | _ => none

theorem rLooked_forget {r : ReaderAt} {u : Nat} {c : Scan} (h : rLooked (r.forget u) = some c) :
    ∃ c', rLooked r = some c' ∧ c'.msg = c.msg := by
  cases r <;> simp [ReaderAt.forget, rLooked] at h ⊢ <;> subst h <;> simp

structure CtrlInv (s : St) : Prop where
  acts : ∀ a ∈ s.acts, ActFrom a
  scan : ∀ c, rScan s.reader = some c → CtrlFrom c.byte c.msg
  looked : ∀ c, rLooked s.reader = some c → c.msg ≠ none

theorem actFrom_head {l as : List Act} {a : Act} (h : ∀ x ∈ l, ActFrom x) (e : l = a :: as) : ActFrom a :=
  h a (by rw [e]; exact List.mem_cons_self)

theorem ctrl_step {lv : LoopVars} {s s' : St} {l : Label} (hi : CtrlInv s) (h : step lv s l = some s') : CtrlInv s' := by
  obtain ⟨k1, k2, k3⟩ := hi
  conn_step h
  all_goals try have q1 := congrArg rScan (by assumption : s.reader = _)
  all_goals try conv at q1 => rhs; whnf
  all_goals try have q2 := congrArg rLooked (by assumption : s.reader = _)
  all_goals try conv at q2 => rhs; whnf
  all_goals try have qa := actFrom_head k1 (by assumption : s.acts = _ :: _)
  all_goals try simp only [ActFrom] at qa
  all_goals constructor
  all_goals first
    | assumption
    | grind [upd, rScan, rLooked, → rScan_forget, → rLooked_forget, → iter_actFrom, ActFrom]

theorem ctrlInv {lv : LoopVars} {s : St} (h : Reachable lv s) : CtrlInv s :=
  reach_induct (P := CtrlInv) (by constructor <;> simp [init, rScan, rLooked]) (fun _ _ _ _ hp hs => ctrl_step hp hs) s h

end Verif.Lemmas.Conn
