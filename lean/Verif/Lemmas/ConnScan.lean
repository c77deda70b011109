import Verif.Lemmas.ConnAck
import Verif.Lemmas.ConnTable
import Verif.Lemmas.ConnLive

/-
The reader's scan of the in-flight table for a control byte.
-/

set_option linter.unusedSimpArgs false
set_option linter.unusedVariables false
set_option maxHeartbeats 4000000

namespace Verif.Lemmas.Conn

open Verif.Go Verif.Model Verif.Model.Conn Verif.Spec

/-! ### One scan, the reader running alone -/

/-- Steps of the reader inside one scan. -/
inductive ScanRun (lv : LoopVars) : St → St → Prop where
  | refl (s : St) : ScanRun lv s s
  | step {s s1 s' : St} {op : ReaderOp} : rScan s.reader ≠ none →
      Conn.step lv s (.reader op) = some s1 → ScanRun lv s1 s' → ScanRun lv s s'

/-- What the resend goroutine captures. -/
def refOf (lv : LoopVars) (loop u : Nat) : Ref :=
  match lv with
  | .perLoop => .loopVar loop
  | .perIteration => .direct u

/-- Table, channels and resend goroutines as in `s0`. -/
structure Eff0 (s0 s : St) : Prop where
  inFlight : s.inFlight = s0.inFlight
  closed : s.closed = s0.closed
  field : s.field = s0.field
  nResend : s.nResend = s0.nResend
  resend : s.resend = s0.resend

/-- Table and channels after request `u` was refused by a NAK. -/
structure EffN (s0 : St) (u : Nat) (m : Message) (s : St) : Prop where
  inFlight : s.inFlight = if m.isNAK then s0.inFlight.filter (· != u) else s0.inFlight
  closed : ∀ v, s.closed v = if m.isNAK = true ∧ v = u ∧ s0.field u = true then true else s0.closed v
  field : ∀ v, s.field v = if m.isNAK = true ∧ v = u then false else s0.field v

/-- The whole effect of a control byte. -/
structure Eff1 (lv : LoopVars) (s0 : St) (u : Nat) (m : Message) (s : St) : Prop where
  n : EffN s0 u m s
  nResend : s.nResend = if m.isCAN then s0.nResend + 1 else s0.nResend
  resend : s.resend = if m.isCAN then upd s0.resend s0.nResend (.sleep (refOf lv s0.nLoop u)) else s0.resend

/-- Not touched by a scan. -/
structure Same (s0 s : St) : Prop where
  client : s.client = s0.client
  got : s.got = s0.got
  req : s.req = s0.req
  last : s.lastCommand = s0.lastCommand
  writer : s.writer = s0.writer
  timer : s.timer = s0.timer
  port : s.port = s0.port
  buf : s.buf = s0.buf
  acts : s.acts = s0.acts.tail

/-- Position-dependent invariant of a scan by the reader alone. -/
def ScanQ (lv : LoopVars) (s0 : St) (u : Nat) (m : Message) (s : St) : Prop :=
  Same s0 s ∧
  match s.reader with
  | .scanNext c => s.lock = none ∧ s.mapBusy = false ∧ c.msg = some m ∧ c.loop = s0.nLoop ∧
      ((u ∈ c.must ∧ u ∉ c.seen ∧ Eff0 s0 s) ∨
       (u ∉ c.must ∧ (u ∈ c.seen ∨ u ∉ s.inFlight) ∧ Eff1 lv s0 u m s))
  | .scanLock c v => s.lock = none ∧ s.mapBusy = false ∧ c.msg = some m ∧ c.loop = s0.nLoop ∧
      ((v = u ∧ u ∉ c.must ∧ u ∈ c.seen ∧ Eff0 s0 s) ∨ (v ≠ u ∧ u ∈ c.must ∧ u ∉ c.seen ∧ Eff0 s0 s) ∨
       (v ≠ u ∧ u ∉ c.must ∧ (u ∈ c.seen ∨ u ∉ s.inFlight) ∧ Eff1 lv s0 u m s))
  | .scanTest c v => s.mapBusy = false ∧ c.msg = some m ∧ c.loop = s0.nLoop ∧
      ((v = u ∧ u ∉ c.must ∧ u ∈ c.seen ∧ Eff0 s0 s) ∨ (v ≠ u ∧ u ∈ c.must ∧ u ∉ c.seen ∧ Eff0 s0 s) ∨
       (v ≠ u ∧ u ∉ c.must ∧ (u ∈ c.seen ∨ u ∉ s.inFlight) ∧ Eff1 lv s0 u m s))
  | .scanUnlock c v => s.mapBusy = false ∧ c.msg = some m ∧ c.loop = s0.nLoop ∧
      ((u ∈ c.must ∧ u ∉ c.seen ∧ Eff0 s0 s) ∨
       (u ∉ c.must ∧ (u ∈ c.seen ∨ u ∉ s.inFlight) ∧ Eff1 lv s0 u m s))
  | .scanSend c v => s.mapBusy = false ∧ c.msg = some m ∧ c.loop = s0.nLoop ∧
      v = u ∧ u ∉ c.must ∧ u ∈ c.seen ∧ Eff0 s0 s
  | .scanNak c v => s.mapBusy = false ∧ c.msg = some m ∧ c.loop = s0.nLoop ∧
      v = u ∧ u ∉ c.must ∧ u ∈ c.seen ∧ Eff0 s0 s
  | .scanDeleting c v => c.msg = some m ∧ c.loop = s0.nLoop ∧
      v = u ∧ u ∉ c.must ∧ m.isNAK = true ∧ Eff0 s0 s
  | .scanClosing c v a => s.mapBusy = false ∧ c.msg = some m ∧ c.loop = s0.nLoop ∧
      v = u ∧ u ∉ c.must ∧ m.isNAK = true ∧ s.inFlight = s0.inFlight.filter (· != u) ∧
      s.nResend = s0.nResend ∧ s.resend = s0.resend ∧ s.field = s0.field ∧
      (match a with
        | .check => s.closed = s0.closed
        | .close => s.closed = s0.closed ∧ s0.field u = true
        | .clear => s0.field u = true ∧ ∀ v, s.closed v = if v = u then true else s0.closed v)
  | .scanCan c v => s.mapBusy = false ∧ c.msg = some m ∧ c.loop = s0.nLoop ∧
      v = u ∧ u ∉ c.must ∧ (u ∈ c.seen ∨ u ∉ s.inFlight) ∧ EffN s0 u m s ∧
      s.nResend = s0.nResend ∧ s.resend = s0.resend
  | .exec => s.lock = none ∧ Eff1 lv s0 u m s
  | _ => False

theorem nak_not_can {m : Message} (h : m.isNAK = true) : m.isCAN = false := by
  simp only [Message.isNAK, Message.isCAN, beq_iff_eq] at *
  simp [h]

theorem scanQ_step {lv : LoopVars} {s0 s s1 : St} {u : Nat} {m : Message} {op : ReaderOp}
    (h0 : s0.lastCommand = some u) (h01 : s0.field u = true → s0.closed u = false)
    (hs : step lv s (.reader op) = some s1)
    (hsc : rScan s.reader ≠ none) (hq : ScanQ lv s0 u m s) :
    ScanQ lv s0 u m s1 := by
  obtain ⟨hsame, hq⟩ := hq
  obtain ⟨t1, t2, t3, t4, t5, t6, t7, t8, t9⟩ := hsame
  unfold step at hs
  split at hs
  · cases hs
  rename_i hcr
  simp only at hs
  cases hx : s.reader <;> simp only [hx] at hq <;> try exact hq.elim
  case exec => simp [hx, rScan] at hsc
  case scanNext c =>
    obtain ⟨q1, q2, q3, q4, q5⟩ := hq
    cases op <;> simp only [readerStep, hx, q2, Bool.false_eq_true, false_and, if_false] at hs <;> try cases hs
    case pick v =>
      split at hs
      · cases hs
      split at hs
      · rename_i hv
        obtain ⟨hv1, hv2⟩ := hv
        cases hs
        refine ⟨⟨t1, t2, t3, t4, t5, t6, t7, t8, t9⟩, q1, (by first | exact q2 | rfl), q3, q4, ?_⟩
        rcases q5 with ⟨a, b, e⟩ | ⟨a, b, e⟩
        · by_cases hvu : v = u
          · subst hvu
            exact .inl ⟨rfl, by simp, by simp, ⟨e.1, e.2, e.3, e.4, e.5⟩⟩
          · exact .inr (.inl ⟨hvu, by simp [a, Ne.symm hvu], by simp [b, Ne.symm hvu],
              ⟨e.1, e.2, e.3, e.4, e.5⟩⟩)
        · have hvu : v ≠ u := by
            rintro rfl
            exact b.elim hv2 (fun b => b hv1)
          exact .inr (.inr ⟨hvu, by simp [a], b.imp (by simp; exact .inr) id,
            ⟨⟨e.1.1, e.1.2, e.1.3⟩, e.2, e.3⟩⟩)
      · cases hs
    case stop =>
      split at hs
      · rename_i hm
        cases hs
        refine ⟨⟨t1, t2, t3, t4, t5, t6, t7, t8, t9⟩, q1, ?_⟩
        rcases q5 with ⟨a, b, e⟩ | ⟨a, b, e⟩
        · simp [hm] at a
        · exact ⟨⟨e.1.1, e.1.2, e.1.3⟩, e.2, e.3⟩
      · cases hs
  case scanLock c v =>
    obtain ⟨q1, q2, q3, q4, q5⟩ := hq
    cases op <;> simp only [readerStep, hx, q1, if_true] at hs <;> try cases hs
    refine ⟨⟨t1, t2, t3, t4, t5, t6, t7, t8, t9⟩, q2, q3, q4, ?_⟩
    rcases q5 with ⟨a, b, c, e⟩ | ⟨a, b, c, e⟩ | ⟨a, b, c, e⟩
    · exact .inl ⟨a, b, c, ⟨e.1, e.2, e.3, e.4, e.5⟩⟩
    · exact .inr (.inl ⟨a, b, c, ⟨e.1, e.2, e.3, e.4, e.5⟩⟩)
    · exact .inr (.inr ⟨a, b, c, ⟨⟨e.1.1, e.1.2, e.1.3⟩, e.2, e.3⟩⟩)
  case scanTest c v =>
    obtain ⟨q2, q3, q4, q5⟩ := hq
    cases op <;> simp only [readerStep, hx, t4, h0] at hs <;> try cases hs
    split at hs
    · rename_i hvu
      cases hvu
      cases hs
      refine ⟨⟨t1, t2, t3, (by first | exact t4 | exact h0.symm), t5, t6, t7, t8, t9⟩, q2, q3, q4, rfl, ?_⟩
      rcases q5 with ⟨a, b, c, e⟩ | ⟨a, b, c, e⟩ | ⟨a, b, c, e⟩
      · exact ⟨b, c, ⟨e.1, e.2, e.3, e.4, e.5⟩⟩
      · exact absurd rfl a
      · exact absurd rfl a
    · rename_i hvu
      cases hs
      refine ⟨⟨t1, t2, t3, (by first | exact t4 | exact h0.symm), t5, t6, t7, t8, t9⟩, q2, q3, q4, ?_⟩
      rcases q5 with ⟨a, b, c, e⟩ | ⟨a, b, c, e⟩ | ⟨a, b, c, e⟩
      · exact absurd (by rw [a]) hvu
      · exact .inl ⟨b, c, ⟨e.1, e.2, e.3, e.4, e.5⟩⟩
      · exact .inr ⟨b, c, ⟨⟨e.1.1, e.1.2, e.1.3⟩, e.2, e.3⟩⟩
  case scanSend c v =>
    obtain ⟨q2, q3, q4, q5, q6, q7, e⟩ := hq
    cases op <;> simp only [readerStep, hx] at hs <;> try cases hs
    case sendTo w =>
      split at hs
      · cases hs
        exact ⟨⟨t1, t2, t3, t4, t5, t6, t7, t8, t9⟩, q2, q3, q4, q5, q6, q7, ⟨e.1, e.2, e.3, e.4, e.5⟩⟩
      · cases hs
    case skip =>
      exact ⟨⟨t1, t2, t3, t4, t5, t6, t7, t8, t9⟩, q2, q3, q4, q5, q6, q7, ⟨e.1, e.2, e.3, e.4, e.5⟩⟩
  case scanNak c v =>
    obtain ⟨q2, q3, q4, q5, q6, q7, e⟩ := hq
    cases op <;> simp only [readerStep, hx, q3, q2, Bool.false_eq_true, if_false] at hs <;> try cases hs
    split at hs
    · rename_i hnak
      cases hs
      exact ⟨⟨t1, t2, t3, t4, t5, t6, t7, t8, t9⟩, q3, q4, q5, q6, hnak, ⟨e.1, e.2, e.3, e.4, e.5⟩⟩
    · rename_i hnak
      cases hs
      refine ⟨⟨t1, t2, t3, t4, t5, t6, t7, t8, t9⟩, (by first | exact q2 | rfl), q3, q4, q5, q6, .inl q7, ⟨?_, ?_, ?_⟩, e.4, e.5⟩
      · simp [hnak, e.1]
      · intro v; simp [hnak, e.2]
      · intro v; simp [hnak, e.3]
  case scanDeleting c v =>
    obtain ⟨q3, q4, q5, q6, q7, e⟩ := hq
    subst q5
    cases op <;> simp only [readerStep, hx] at hs <;> try cases hs
    exact ⟨⟨t1, t2, t3, t4, t5, t6, t7, t8, t9⟩, rfl, q3, q4, rfl, by simp [q6], q7, by simp [e.1], e.4, e.5,
      e.3, e.2⟩
  case scanClosing c v a =>
    obtain ⟨q2, q3, q4, q5, q6, q7, q8, q9, q10, q11, q12⟩ := hq
    subst q5
    have hni : v ∉ s.inFlight := by simp [q8]
    cases op <;> simp only [readerStep, hx] at hs <;> try (cases hs; done)
    cases a <;> simp only [closeStep] at hs q12
    · split at hs
      · rename_i hf
        cases hs
        exact ⟨⟨t1, t2, t3, t4, t5, t6, t7, t8, t9⟩, q2, q3, q4, rfl, q6, q7, q8, q9, q10, q11, q12,
          by rw [← q11]; exact hf⟩
      · rename_i hf
        cases hs
        have hf' : s0.field v = false := by rw [← q11]; simpa using hf
        refine ⟨⟨t1, t2, t3, t4, t5, t6, t7, t8, t9⟩, q2, q3, q4, rfl, q6, .inr hni, ⟨?_, ?_, ?_⟩, q9, q10⟩
        · simp [q7, q8]
        · intro x; simp [q12, hf']
        · intro x; by_cases hxv : x = v <;> simp [q7, hxv, q11, hf']
    · split at hs
      · cases hs
        refine ⟨⟨t1, t2, t3, t4, t5, t6, t7, t8, t9⟩, q2, q3, q4, rfl, q6, q7, q8, q9, q10, q11, q12.2, ?_⟩
        intro x; simp [upd, q12.1]
      · rename_i hf
        exact absurd ⟨by rw [q11]; exact q12.2, by rw [q12.1]; exact h01 q12.2⟩ hf
    · cases hs
      refine ⟨⟨t1, t2, t3, t4, t5, t6, t7, t8, t9⟩, q2, q3, q4, rfl, q6, .inr hni, ⟨?_, ?_, ?_⟩, q9, q10⟩
      · simp [q7, q8]
      · intro x; simp [q12.2, q7, q12.1]
      · intro x; simp [upd, q7, q11]
  case scanCan c v =>
    obtain ⟨q2, q3, q4, q5, q6, q7, e, q9, q10⟩ := hq
    subst q5
    cases op <;> simp only [readerStep, hx, q3] at hs <;> try cases hs
    split at hs
    · rename_i hcan
      cases hs
      refine ⟨⟨t1, t2, t3, t4, t5, t6, t7, t8, t9⟩, q2, q3, q4, .inr ⟨q6, q7, ⟨⟨e.1, e.2, e.3⟩, ?_, ?_⟩⟩⟩
      · simp [hcan, q9]
      · cases lv <;> simp [hcan, q9, q10, q4, refOf]
    · rename_i hcan
      cases hs
      refine ⟨⟨t1, t2, t3, t4, t5, t6, t7, t8, t9⟩, q2, q3, q4, .inr ⟨q6, q7, ⟨⟨e.1, e.2, e.3⟩, ?_, ?_⟩⟩⟩
      · simp [hcan, q9]
      · simp [hcan, q10]
  case scanUnlock c v =>
    obtain ⟨q2, q3, q4, q5⟩ := hq
    cases op <;> simp only [readerStep, hx] at hs <;> try cases hs
    refine ⟨⟨t1, t2, t3, t4, t5, t6, t7, t8, t9⟩, rfl, q2, q3, q4, ?_⟩
    rcases q5 with ⟨a, b, e⟩ | ⟨a, b, e⟩
    · exact .inl ⟨a, b, ⟨e.1, e.2, e.3, e.4, e.5⟩⟩
    · exact .inr ⟨a, b, ⟨⟨e.1.1, e.1.2, e.1.3⟩, e.2, e.3⟩⟩

/-- The effect of a whole scan by the reader alone, whatever the iteration order. -/
theorem scanQ_run {lv : LoopVars} {s0 s s' : St} {u : Nat} {m : Message}
    (h0 : s0.lastCommand = some u) (h01 : s0.field u = true → s0.closed u = false)
    (hr : ScanRun lv s s') (hq : ScanQ lv s0 u m s) :
    ScanQ lv s0 u m s' := by
  induction hr with
  | refl s => exact hq
  | step h1 h2 h3 ih => exact ih (scanQ_step h0 h01 h2 h1 hq)



/-! ### A scan always ends -/

/-- Entries a scan has still to visit are in the table and not visited. -/
structure MustInv (s : St) : Prop where
  mem : ∀ c v, rScan s.reader = some c → v ∈ c.must → v ∈ s.inFlight
  new : ∀ c v, rScan s.reader = some c → v ∈ c.must → v ∉ c.seen

theorem rScan_forget2 {r : ReaderAt} {u : Nat} {c : Scan} (h : rScan (r.forget u) = some c) :
    ∃ c', rScan r = some c' ∧ c.must = c'.must.filter (· != u) ∧ c.seen = c'.seen.filter (· != u) := by
  cases r <;> simp [ReaderAt.forget, rScan] at h ⊢ <;> subst h <;> simp

theorem must_step {lv : LoopVars} {s s' : St} {l : Label}
    (hi : MustInv s) (h : step lv s l = some s') : MustInv s' := by
  obtain ⟨k1, k2⟩ := hi
  conn_step h
  all_goals conn_facts s
  all_goals constructor
  all_goals first
    | assumption
    | grind [upd, rScan, → rScan_forget2, mem_insertKey, ReaderAt.forget]

theorem mustInv {lv : LoopVars} {s : St} (h : Reachable lv s) : MustInv s :=
  reach_induct (P := MustInv) (by constructor <;> simp [init, rScan])
    (fun _ _ _ hr hp hs => must_step hp hs) s h

def sRank : ReaderAt → Nat
  | .scanNext c => 20 * c.must.length + 1
  | .scanLock c _ => 20 * c.must.length + 15
  | .scanTest c _ => 20 * c.must.length + 14
  | .scanSend c _ => 20 * c.must.length + 13
  | .scanNak c _ => 20 * c.must.length + 12
  | .scanDeleting c _ => 20 * c.must.length + 11
  | .scanClosing c _ a => 20 * c.must.length + 5 + cRank a
  | .scanCan c _ => 20 * c.must.length + 4
  | .scanUnlock c _ => 20 * c.must.length + 3
  | _ => 0

/-- What a step inside a scan achieves. -/
structure ScanGo (s s1 : St) : Prop where
  rank : sRank s1.reader < sRank s.reader
  crash : s1.crashed = none
  lock : s1.lock = none ∨ s1.lock = some .scan
  at_ : s1.reader = .exec ∨ ∀ c, rScan s.reader = some c → ∃ c', rScan s1.reader = some c' ∧ c'.msg = c.msg

theorem filter_le {l : List Nat} {u : Nat} : (l.filter (· != u)).length ≤ l.length :=
  List.length_filter_le _ _

theorem scan_progress {lv : LoopVars} {s : St} {c : Scan} (h : Reachable lv s)
    (hn : s.crashed = none) (hc : rScan s.reader = some c)
    (hm : (∃ m, c.msg = some m) ∨ ∀ v, s.reader ≠ .scanNak c v ∧ s.reader ≠ .scanCan c v)
    (hl : s.lock = none ∨ s.lock = some .scan) :
    ∃ op s1, step lv s (.reader op) = some s1 ∧ ScanGo s s1 := by
  have hmap := mapInv h hn
  obtain ⟨-, -, L3, -⟩ := lockInv h
  have hmust := mustInv h
  have hch := chan h
  have hfree : sCrit s.reader = false → s.lock = none := by
    intro hx
    rcases hl with hl | hl
    · exact hl
    · rw [L3.2 hl] at hx; cases hx
  have hbusy : rMid s.reader = false → s.mapBusy = false := by
    intro hx
    rw [hmap]
    rcases hl with hl | hl <;> simp [midOf, hl, hx]
  have hlock : sCrit s.reader = true → s.lock = some .scan := L3.1
  cases hx : s.reader <;> simp only [hx, rScan] at hc <;> try cases hc
  case scanNext =>
    have hb := hbusy (by simp [hx, rMid])
    have hl0 := hfree (by simp [hx, sCrit])
    cases ht : c.must with
    | nil =>
      refine ⟨.stop, ?_⟩
      simp only [step, hn, Option.isSome_none, Bool.false_eq_true, if_false, readerStep, hx, hb, ht, false_and, if_true]
      refine ⟨_, rfl, ?_, (by first | exact hn | rfl), (.inl (by first | exact hl0 | rfl)), .inl rfl⟩
      simp [hx, sRank]
    | cons v r =>
      have hv : v ∈ c.must := by simp [ht]
      have hv1 := hmust.mem c v (by simp [hx, rScan]) hv
      have hv2 := hmust.new c v (by simp [hx, rScan]) hv
      refine ⟨.pick v, ?_⟩
      simp only [step, hn, Option.isSome_none, Bool.false_eq_true, if_false, readerStep, hx, hb]
      rw [if_neg (fun hx => by rw [ht] at hx; cases hx.1), if_pos ⟨hv1, hv2⟩]
      refine ⟨_, rfl, ?_, (by first | exact hn | rfl), .inl (by first | exact hl0 | rfl), .inr ?_⟩
      · have := filter_shorter hv
        simp only [hx, sRank]; omega
      · intro c' hc'; simp only [hx, rScan] at hc'; cases hc'; exact ⟨_, rfl, rfl⟩
  case scanLock v =>
    have hl0 := hfree (by simp [hx, sCrit])
    refine ⟨.go, ?_⟩
    simp only [step, hn, Option.isSome_none, Bool.false_eq_true, if_false, readerStep, hx, hl0, if_true]
    refine ⟨_, rfl, ?_, (by first | exact hn | rfl), .inr rfl, .inr ?_⟩
    · simp [hx, sRank]
    · intro c' hc'; simp only [hx, rScan] at hc'; cases hc'; exact ⟨_, rfl, rfl⟩
  case scanTest v =>
    have hl0 := hlock (by simp [hx, sCrit])
    by_cases hlc : s.lastCommand = some v
    · refine ⟨.go, ?_⟩
      simp only [step, hn, Option.isSome_none, Bool.false_eq_true, if_false, readerStep, hx]; rw [if_pos hlc]
      refine ⟨_, rfl, ?_, (by first | exact hn | rfl), (.inr (by first | exact hl0 | rfl)), .inr ?_⟩
      · simp [hx, sRank]
      · intro c' hc'; simp only [hx, rScan] at hc'; cases hc'; exact ⟨_, rfl, rfl⟩
    · refine ⟨.go, ?_⟩
      simp only [step, hn, Option.isSome_none, Bool.false_eq_true, if_false, readerStep, hx]; rw [if_neg hlc]
      refine ⟨_, rfl, ?_, (by first | exact hn | rfl), (.inr (by first | exact hl0 | rfl)), .inr ?_⟩
      · simp [hx, sRank]
      · intro c' hc'; simp only [hx, rScan] at hc'; cases hc'; exact ⟨_, rfl, rfl⟩
  case scanSend v =>
    have hl0 := hlock (by simp [hx, sCrit])
    refine ⟨.skip, ?_⟩
    simp only [step, hn, Option.isSome_none, Bool.false_eq_true, if_false, readerStep, hx]
    refine ⟨_, rfl, ?_, (by first | exact hn | rfl), (.inr (by first | exact hl0 | rfl)), .inr ?_⟩
    · simp [hx, sRank]
    · intro c' hc'; simp only [hx, rScan] at hc'; cases hc'; exact ⟨_, rfl, rfl⟩
  case scanNak v =>
    have hl0 := hlock (by simp [hx, sCrit])
    obtain ⟨m, hm⟩ := hm.resolve_right (fun hr => by simp [hx] at hr)
    have hb := hbusy (by simp [hx, rMid])
    by_cases hk : m.isNAK = true
    · refine ⟨.go, ?_⟩
      simp only [step, hn, Option.isSome_none, Bool.false_eq_true, if_false, readerStep, hx, hm, hk, hb, if_true]
      refine ⟨_, rfl, ?_, (by first | exact hn | rfl), (.inr (by first | exact hl0 | rfl)), .inr ?_⟩
      · simp [hx, sRank]
      · intro c' hc'; simp only [hx, rScan] at hc'; cases hc'; exact ⟨_, rfl, rfl⟩
    · refine ⟨.go, ?_⟩
      simp only [step, hn, Option.isSome_none, Bool.false_eq_true, if_false, readerStep, hx, hm, hk]
      refine ⟨_, rfl, ?_, (by first | exact hn | rfl), (.inr (by first | exact hl0 | rfl)), .inr ?_⟩
      · simp [hx, sRank]
      · intro c' hc'; simp only [hx, rScan] at hc'; cases hc'; exact ⟨_, rfl, rfl⟩
  case scanDeleting v =>
    have hl0 := hlock (by simp [hx, sCrit])
    refine ⟨.go, ?_⟩
    simp only [step, hn, Option.isSome_none, Bool.false_eq_true, if_false, readerStep, hx]
    refine ⟨_, rfl, ?_, (by first | exact hn | rfl), (.inr (by first | exact hl0 | rfl)), .inr ?_⟩
    · have := filter_le (l := c.must) (u := v)
      simp only [hx, sRank, ReaderAt.forget, cRank]; omega
    · intro c' hc'; simp only [hx, rScan] at hc'; cases hc'; exact ⟨_, rfl, rfl⟩
  case scanClosing v a =>
    have hl0 := hlock (by simp [hx, sCrit])
    cases a with
    | check =>
      by_cases hf : s.field v = true
      · refine ⟨.go, ?_⟩
        simp only [step, hn, Option.isSome_none, Bool.false_eq_true, if_false, readerStep, hx, closeStep, hf, if_true]
        refine ⟨_, rfl, ?_, (by first | exact hn | rfl), (.inr (by first | exact hl0 | rfl)), .inr ?_⟩
        · simp [hx, sRank, cRank]
        · intro c' hc'; simp only [hx, rScan] at hc'; cases hc'; exact ⟨_, rfl, rfl⟩
      · refine ⟨.go, ?_⟩
        simp only [step, hn, Option.isSome_none, Bool.false_eq_true, if_false, readerStep, hx, closeStep, hf]
        refine ⟨_, rfl, ?_, (by first | exact hn | rfl), (.inr (by first | exact hl0 | rfl)), .inr ?_⟩
        · simp [hx, sRank, cRank]
        · intro c' hc'; simp only [hx, rScan] at hc'; cases hc'; exact ⟨_, rfl, rfl⟩
    | close =>
      have hf := hch.closing v (by simp [closingOf, hl0, hx, rClosing])
      refine ⟨.go, ?_⟩
      simp only [step, hn, Option.isSome_none, Bool.false_eq_true, if_false, readerStep, hx, closeStep, hf, and_self, if_true]
      refine ⟨_, rfl, ?_, (by first | exact hn | rfl), (.inr (by first | exact hl0 | rfl)), .inr ?_⟩
      · simp [hx, sRank, cRank]
      · intro c' hc'; simp only [hx, rScan] at hc'; cases hc'; exact ⟨_, rfl, rfl⟩
    | clear =>
      refine ⟨.go, ?_⟩
      simp only [step, hn, Option.isSome_none, Bool.false_eq_true, if_false, readerStep, hx, closeStep]
      refine ⟨_, rfl, ?_, (by first | exact hn | rfl), (.inr (by first | exact hl0 | rfl)), .inr ?_⟩
      · simp [hx, sRank, cRank]
      · intro c' hc'; simp only [hx, rScan] at hc'; cases hc'; exact ⟨_, rfl, rfl⟩
  case scanCan v =>
    have hl0 := hlock (by simp [hx, sCrit])
    obtain ⟨m, hm⟩ := hm.resolve_right (fun hr => by simp [hx] at hr)
    by_cases hk : m.isCAN = true
    · refine ⟨.go, ?_⟩
      simp only [step, hn, Option.isSome_none, Bool.false_eq_true, if_false, readerStep, hx, hm, hk, if_true]
      refine ⟨_, rfl, ?_, (by first | exact hn | rfl), (.inr (by first | exact hl0 | rfl)), .inr ?_⟩
      · simp [hx, sRank]
      · intro c' hc'; simp only [hx, rScan] at hc'; cases hc'; exact ⟨_, rfl, rfl⟩
    · refine ⟨.go, ?_⟩
      simp only [step, hn, Option.isSome_none, Bool.false_eq_true, if_false, readerStep, hx, hm, hk]
      refine ⟨_, rfl, ?_, (by first | exact hn | rfl), (.inr (by first | exact hl0 | rfl)), .inr ?_⟩
      · simp [hx, sRank]
      · intro c' hc'; simp only [hx, rScan] at hc'; cases hc'; exact ⟨_, rfl, rfl⟩
  case scanUnlock v =>
    refine ⟨.go, ?_⟩
    simp only [step, hn, Option.isSome_none, Bool.false_eq_true, if_false, readerStep, hx]
    refine ⟨_, rfl, ?_, (by first | exact hn | rfl), .inl rfl, .inr ?_⟩
    · simp [hx, sRank]
    · intro c' hc'; simp only [hx, rScan] at hc'; cases hc'; exact ⟨_, rfl, rfl⟩

/-- The reader alone can always finish its scan. -/
theorem scan_completes {lv : LoopVars} {s : St} {c : Scan} {m : Message} (h : Reachable lv s)
    (hn : s.crashed = none) (hc : rScan s.reader = some c) (hm : c.msg = some m)
    (hl : s.lock = none ∨ s.lock = some .scan) :
    ∃ s', ScanRun lv s s' ∧ s'.reader = .exec ∧ s'.crashed = none := by
  generalize hk : sRank s.reader = k
  induction k using Nat.strongRecOn generalizing s c with
  | _ k ih =>
    obtain ⟨op, s1, h1, g1, g2, g3, g4⟩ := scan_progress h hn hc (.inl ⟨m, hm⟩) hl
    rcases g4 with g4 | g4
    · exact ⟨s1, .step (by simp [hc]) h1 (.refl _), g4, g2⟩
    · obtain ⟨c', hc', hm'⟩ := g4 c hc
      obtain ⟨s2, q1, q2⟩ := ih _ (hk ▸ g1) (reachable_step h h1) g2 hc' (hm'.trans hm) g3 rfl
      exact ⟨s2, .step (by simp [hc]) h1 q1, q2⟩

/-! ### Every interleaving -/

/-- The request a scan has found to be the last command. -/
def rHit : ReaderAt → Option Nat
  | .scanSend _ u | .scanNak _ u | .scanDeleting _ u | .scanClosing _ u _ | .scanCan _ u => some u
  | _ => none

@[simp] theorem rHit_forget (r : ReaderAt) (u : Nat) : rHit (r.forget u) = rHit r := by
  cases r <;> rfl

theorem rHit_crit {r : ReaderAt} {u : Nat} (h : rHit r = some u) : sCrit r = true ∧ rReq r = some u := by
  cases r <;> simp_all [rHit, sCrit, rReq]

/-- While the scan acts on a request, no other request becomes the last command. -/
def HitInv (s : St) : Prop :=
  ∀ u, rHit s.reader = some u → s.lastCommand = some u ∨ s.lastCommand = none

theorem hit_step {lv : LoopVars} {s s' : St} {l : Label} (hl : LockInv s)
    (hi : HitInv s) (h : step lv s l = some s') : HitInv s' := by
  obtain ⟨h1, h2, h3, h4⟩ := hl
  unfold HitInv at *
  conn_step h
  all_goals conn_facts2 s
  all_goals try have qak := congrArg rHit (by assumption : s.reader = _)
  all_goals try conv at qak => rhs; whnf
  all_goals first
    | assumption
    | grind [upd, rHit, rHit_forget, → rHit_crit, wCrit]

theorem hitInv {lv : LoopVars} {s : St} (h : Reachable lv s) : HitInv s :=
  reach_induct (P := HitInv) (by intro u; simp [init, rHit])
    (fun _ _ _ hr hp hs => hit_step (lockInv hr) hp hs) s h

/-- The NAK branch: positions after `msg.IsNAK()` was true. -/
def rNak : ReaderAt → Option (Scan × Nat)
  | .scanDeleting c u | .scanClosing c u _ => some (c, u)
  | _ => none

theorem rNak_forget {r : ReaderAt} {u v : Nat} {c : Scan} (h : rNak (r.forget u) = some (c, v)) :
    ∃ c', rNak r = some (c', v) ∧ c'.byte = c.byte ∧ c'.msg = c.msg := by
  cases r <;> simp [ReaderAt.forget, rNak] at h ⊢ <;> obtain ⟨rfl, rfl⟩ := h <;> simp

/-- The NAK branch is entered for NAK bytes only. -/
def NakInv (s : St) : Prop := ∀ c v, rNak s.reader = some (c, v) → c.byte = 0x15

theorem isNAK_start {m : Message} (h : m.isNAK = true) : m.startByte = 0x15 := by
  simpa [Message.isNAK] using h
theorem isCAN_start {m : Message} (h : m.isCAN = true) : m.startByte = 0x18 := by
  simpa [Message.isCAN] using h

theorem nakb_step {lv : LoopVars} {s s' : St} {l : Label} (hd : DataInv s)
    (hi : NakInv s) (h : step lv s l = some s') : NakInv s' := by
  have d := hd.scan
  clear hd
  unfold NakInv at *
  conn_step h
  all_goals conn_facts2 s
  all_goals try have qak := congrArg rNak (by assumption : s.reader = _)
  all_goals try conv at qak => rhs; whnf
  all_goals first
    | assumption
    | grind [upd, rNak, → rNak_forget, → isNAK_start, CtrlOk, ReaderAt.forget]

theorem nakInv {lv : LoopVars} {s : St} (h : Reachable lv s) : NakInv s :=
  reach_induct (P := NakInv) (by intro c u; simp [init, rNak])
    (fun _ _ _ hr hp hs => nakb_step (dataInv hr) hp hs) s h

/-- The value of loop `l`'s variable according to the visits made. -/
def lastVisit (l : Nat) : List Ev → Option Nat
  | [] => none
  | .visit l' v :: r => if l' = l then some v else lastVisit l r
  | _ :: r => lastVisit l r

/-- A loop variable holds the entry the loop visited last. -/
def LoopInv (s : St) : Prop := ∀ l v, lastVisit l s.hist = some v → s.loopVar l = v

theorem loop_step {lv : LoopVars} {s s' : St} {l : Label}
    (hi : LoopInv s) (h : step lv s l = some s') : LoopInv s' := by
  unfold LoopInv at *
  conn_step h
  all_goals first
    | assumption
    | grind [upd, lastVisit]

theorem loopInv {lv : LoopVars} {s : St} (h : Reachable lv s) : LoopInv s :=
  reach_induct (P := LoopInv) (by intro l v; simp [init, lastVisit])
    (fun _ _ _ hr hp hs => loop_step hp hs) s h

end Verif.Lemmas.Conn
