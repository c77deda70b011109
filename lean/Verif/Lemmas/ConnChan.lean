import Verif.Lemmas.ConnRange

/-
Invariants of the connection machine: map-write flag and return channels.
-/

set_option linter.unusedSimpArgs false
set_option maxHeartbeats 4000000

namespace Verif.Lemmas.Conn

open Verif.Go Verif.Model Verif.Model.Conn

/-- The writer is in the middle of a map write. -/
def wMid : WriterAt → Bool
  | .inserting _ => true
  | _ => false
/-- The timeout worker is in the middle of a map write. -/
def tMid : TimerAt → Bool
  | .deleting _ => true
  | _ => false
/-- The reader is in the middle of a map write. -/
def rMid : ReaderAt → Bool
  | .scanDeleting _ _ | .frameDeleting _ _ => true
  | _ => false

@[simp] theorem rMid_forget (r : ReaderAt) (u : Nat) : rMid (r.forget u) = rMid r := by
  cases r <;> rfl

/-- The lock holder is in the middle of a map write. -/
def midOf (s : St) : Bool :=
  match s.lock with
  | some (.writer w) => wMid (s.writer w)
  | some (.timer t) => tMid (s.timer t)
  | some _ => rMid s.reader
  | none => false

/-- The map-write flag is set exactly while the lock holder writes the map. -/
def MapInv (s : St) : Prop := s.crashed = none → s.mapBusy = midOf s

theorem map_step {lv : LoopVars} {s s' : St} {l : Label} (hf : Fresh s) (hl : LockInv s)
    (hi : MapInv s) (h : step lv s l = some s') : MapInv s' := by
  obtain ⟨f1, f2, f3, f4, f5, f6⟩ := hf
  obtain ⟨h1, h2, h3, h4⟩ := hl
  unfold MapInv at *
  conn_step h
  all_goals grind [upd, wCrit, tCrit, sCrit, fCrit, midOf, wMid, tMid, rMid, rMid_forget]

theorem mapInv {lv : LoopVars} {s : St} (h : Reachable lv s) : MapInv s :=
  reach_induct (P := MapInv) (by intro _; rfl)
    (fun _ _ _ hr hp hs => map_step (fresh hr) (lockInv hr) hp hs) s h

/-- The `Close` the reader is executing. -/
def rClosing : ReaderAt → Option (Nat × CloseAt)
  | .scanClosing _ u a | .frameClosing _ u a => some (u, a)
  | _ => none
/-- The `Close` the timeout worker is executing. -/
def tClosing : TimerAt → Option (Nat × CloseAt)
  | .closing u a => some (u, a)
  | _ => none
/-- The `Close` the reader is executing after trying to deliver a message. -/
def rFrameClosing : ReaderAt → Option (Nat × CloseAt)
  | .frameClosing _ u a => some (u, a)
  | _ => none
/-- The request the reader is trying to deliver to. -/
def rSending : ReaderAt → Option Nat
  | .frameSend _ u => some u
  | _ => none
/-- The request the reader is about to delete after a frame. -/
def rFrameDel : ReaderAt → Option Nat
  | .frameDelete _ u | .frameDeleting _ u => some u
  | _ => none

@[simp] theorem rClosing_forget (r : ReaderAt) (u : Nat) : rClosing (r.forget u) = rClosing r := by
  cases r <;> rfl
@[simp] theorem rFrameClosing_forget (r : ReaderAt) (u : Nat) :
    rFrameClosing (r.forget u) = rFrameClosing r := by
  cases r <;> rfl
@[simp] theorem rSending_forget (r : ReaderAt) (u : Nat) : rSending (r.forget u) = rSending r := by
  cases r <;> rfl
@[simp] theorem rFrameDel_forget (r : ReaderAt) (u : Nat) :
    rFrameDel (r.forget u) = rFrameDel r := by
  cases r <;> rfl

/-- The `Close` in progress; only a lock holder executes one. -/
def closingOf (s : St) : Option (Nat × CloseAt) :=
  match s.lock with
  | some (.timer t) => tClosing (s.timer t)
  | some .scan | some .frame => rClosing s.reader
  | _ => none

/-- Consistency of return channels. -/
structure ChanInv (s : St) : Prop where
  open_closed : ∀ u, s.field u = true → s.closed u = true → closingOf s = some (u, .clear)
  closing : ∀ u, closingOf s = some (u, .close) → s.field u = true ∧ s.closed u = false
  clearing : ∀ u, closingOf s = some (u, .clear) → s.field u = true ∧ s.closed u = true
  sending : ∀ u, rSending s.reader = some u → s.field u = true ∧ s.closed u = false
  frameCheck : ∀ u, rFrameClosing s.reader = some (u, .check) → s.field u = true ∧ s.closed u = false
  frameDel : ∀ u, rFrameDel s.reader = some u → s.field u = false
  got : ∀ u, s.got u ≠ [] → s.closed u = true ∨
    ∃ a, rFrameClosing s.reader = some (u, a)
  gotLen : ∀ u, s.got u = [] ∨ ∃ x, s.got u = [x]
  fresh : ∀ u, s.nReq ≤ u → s.closed u = false ∧ s.got u = []
  noChan : ∀ u, (s.req u).hasChan = false → s.field u = false ∧ s.closed u = false
  hasChan : ∀ u, u < s.nReq → (s.req u).hasChan = true → s.field u = true ∨ s.closed u = true
  noCrash : s.crashed ≠ some .close ∧ s.crashed ≠ some .send

theorem chan_init : ChanInv init := by
  constructor <;> simp [init, closingOf, rSending, rFrameClosing, rFrameDel]

theorem rSending_fCrit {r : ReaderAt} {u : Nat} (h : rSending r = some u) :
    fCrit r = true ∧ rReq r = some u ∧ rFrameClosing r = none := by
  cases r <;> simp_all [rSending, fCrit, rReq, rFrameClosing]
theorem rFrameClosing_fCrit {r : ReaderAt} {u : Nat} {a : CloseAt}
    (h : rFrameClosing r = some (u, a)) :
    fCrit r = true ∧ rReq r = some u ∧ rClosing r = some (u, a) := by
  cases r <;> simp_all [rFrameClosing, fCrit, rReq, rClosing]
theorem rFrameDel_fCrit {r : ReaderAt} {u : Nat} (h : rFrameDel r = some u) :
    fCrit r = true ∧ rReq r = some u := by
  cases r <;> simp_all [rFrameDel, fCrit, rReq]

theorem chan_step {lv : LoopVars} {s s' : St} {l : Label} (hf : Fresh s) (hl : LockInv s)
    (hr : RangeInv s) (hi : ChanInv s) (h : step lv s l = some s') : ChanInv s' := by
  have f6 := hf.field
  have r1 := hr.timer
  have r2 := hr.reader
  clear hf hr
  obtain ⟨h1, h2, h3, h4⟩ := hl
  obtain ⟨k1, k2, k3, k4, k5, k6, k7, k8, k9, k10, k11, k12⟩ := hi
  conn_step h
  all_goals conn_facts s
  all_goals constructor
  all_goals first
    | assumption
    | grind [upd, wCrit, tCrit, sCrit, fCrit, closingOf, rClosing, tClosing, rFrameClosing, rSending, rFrameDel, rClosing_forget, rFrameClosing_forget, rSending_forget, rFrameDel_forget, Req.hasChan, → nsp_err, → iter_err, → match_err, → rSending_fCrit, → rFrameClosing_fCrit, → rFrameDel_fCrit]

theorem chan {lv : LoopVars} {s : St} (h : Reachable lv s) : ChanInv s :=
  reach_induct (P := ChanInv) chan_init
    (fun _ _ _ hr hp hs => chan_step (fresh hr) (lockInv hr) (range hr) hp hs) s h

end Verif.Lemmas.Conn
