import Verif.Lemmas.ConnScan
import Verif.Lemmas.ConnRuns

/-
C37, C38: what a NAK or CAN from the stick does.
-/

set_option linter.unusedSimpArgs false
set_option maxHeartbeats 4000000

namespace Verif.Props

open Verif.Go Verif.Model Verif.Model.Conn Verif.Spec Verif.Lemmas Verif.Lemmas.Conn

/-! ## Common part -/

/-- The reader is about to handle control byte `b`, decoded as message `m`, command `u` is outstanding,
and nobody holds the lock. -/
structure AtCtrl (s : St) (b : UInt8) (m : Message) (u : Nat) : Prop where
  alive : s.crashed = none
  at_ : s.reader = .exec
  act : ∃ as, s.acts = .ctrl b (some m) :: as
  free : s.lock = none
  last : s.lastCommand = some u
  mem : u ∈ s.inFlight

/-- First step of handling a control byte. -/
theorem enter {lv : LoopVars} {s s1 : St} {b : UInt8} {m : Message} {u : Nat} (h : Reachable lv s)
    (ha : AtCtrl s b m u) (hs : step lv s (.reader .go) = some s1) :
    m.startByte = b ∧ ScanQ lv s u m s1 ∧ rScan s1.reader = some ⟨b, some m, s.inFlight, [], s.nLoop⟩ ∧
      s1.crashed = none ∧ s1.lock = none := by
  obtain ⟨g1, g2, ⟨as, g3⟩, g4, g5, g6⟩ := ha
  have hb : s.mapBusy = false := by rw [mapInv h g1]; simp [midOf, g4]
  have hd := (dataInv h).acts (.ctrl b (some m)) (by simp [g3])
  simp only [step, g1, Option.isSome_none, Bool.false_eq_true, if_false, readerStep, g2, g3] at hs
  cases hs
  refine ⟨hd.2 m rfl, ⟨⟨rfl, rfl, rfl, rfl, rfl, rfl, rfl, rfl, by simp [g3]⟩, ?_⟩, rfl, by first | exact g1 | rfl, g4⟩
  exact ⟨g4, hb, rfl, rfl, .inl ⟨g6, by simp, ⟨rfl, rfl, rfl, rfl, rfl⟩⟩⟩

theorem done_exec {lv : LoopVars} {s s' : St} {u : Nat} {m : Message} (hq : ScanQ lv s u m s')
    (he : s'.reader = .exec) : Same s s' ∧ s'.lock = none ∧ Eff1 lv s u m s' := by
  unfold ScanQ at hq
  rw [he] at hq
  exact ⟨hq.1, hq.2.1, hq.2.2⟩

theorem free_open {lv : LoopVars} {s : St} {u : Nat} (h : Reachable lv s) (hf : s.lock = none) :
    s.field u = true → s.closed u = false := by
  intro h1
  cases hc : s.closed u with
  | false => rfl
  | true => have := (chan h).open_closed u h1 hc; simp [closingOf, hf] at this

/-! ## C37 -/

/-- C37: the reader handles a NAK while command `u` is outstanding, visiting the table in any order.
Afterwards exactly `u` has left the table, its channel (if the caller waits on one) is closed, nothing
was delivered to anybody, and the channels, callers, timers and retransmissions of all other requests
are as before. -/
theorem C37_nak_fails_only_outstanding {lv : LoopVars} {s s1 s' : St} {m : Message} {u : Nat}
    (h : Reachable lv s) (ha : AtCtrl s 0x15 m u) (h1 : step lv s (.reader .go) = some s1)
    (hr : ScanRun lv s1 s') (he : s'.reader = .exec) :
    (∀ v, v ∈ s'.inFlight ↔ v ∈ s.inFlight ∧ v ≠ u) ∧
    s'.closed u = (s.req u).hasChan ∧ (∀ v, v ≠ u → s'.closed v = s.closed v) ∧
    s'.got = s.got ∧ s'.client = s.client ∧ s'.writer = s.writer ∧ s'.timer = s.timer ∧
    s'.resend = s.resend ∧ s'.lock = none := by
  obtain ⟨hm, hq, -⟩ := enter h ha h1
  have hq := scanQ_run ha.last (free_open h ha.free) hr hq
  obtain ⟨e1, e2, e3⟩ := done_exec hq he
  have hn : m.isNAK = true := by simp [Message.isNAK, hm]
  have hc : m.isCAN = false := nak_not_can hn
  have hch := chan h
  have hu : u < s.nReq := (range h).inFlight u ha.mem
  refine ⟨?_, ?_, ?_, e1.got, e1.client, e1.writer, e1.timer, ?_, e2⟩
  · intro v; rw [e3.n.inFlight]; simp [hn]
  · rw [e3.n.closed]
    cases hx : (s.req u).hasChan with
    | false => have := hch.noChan u hx; simp [this.1, this.2]
    | true =>
      rcases hch.hasChan u hu hx with h2 | h2
      · simp [hn, h2]
      · simp [h2]
  · intro v hv; rw [e3.n.closed]; simp [hv]
  · rw [e3.resend]; simp [hc]

/-- C37: the reader can always finish handling the NAK by its own steps. -/
theorem C37_nak_is_handled {lv : LoopVars} {s : St} {m : Message} {u : Nat}
    (h : Reachable lv s) (ha : AtCtrl s 0x15 m u) : ∃ s1 s', step lv s (.reader .go) = some s1 ∧
      ScanRun lv s1 s' ∧ s'.reader = .exec ∧ s'.crashed = none := by
  have hs : ∃ s1, step lv s (.reader .go) = some s1 := by
    obtain ⟨g1, g2, ⟨as, g3⟩, -⟩ := ha
    exact ⟨_, by simp only [step, g1, Option.isSome_none, Bool.false_eq_true, if_false, readerStep, g2, g3]; rfl⟩
  obtain ⟨s1, hs⟩ := hs
  obtain ⟨-, -, h2, h3, h4⟩ := enter h ha hs
  obtain ⟨s', h5, h6⟩ := scan_completes (reachable_step h hs) h3 h2 rfl (.inl h4)
  exact ⟨s1, s', hs, h5, h6⟩

/-- C37 in every interleaving: while the reader handles a control byte, a step of the reader removes a
request from the table or closes its channel only if the byte is a NAK and that request is the last
command (or the last command has meanwhile been reset); it adds nothing and delivers nothing. -/
theorem C37_only_outstanding_any_interleaving {lv : LoopVars} {s s' : St} {op : ReaderOp} {c : Scan}
    (h : Reachable lv s) (hc : rScan s.reader = some c) (hs : step lv s (.reader op) = some s') :
    s'.got = s.got ∧ (∀ v ∈ s'.inFlight, v ∈ s.inFlight) ∧
    ∀ v, (v ∈ s.inFlight ∧ v ∉ s'.inFlight) ∨ s'.closed v ≠ s.closed v →
      c.byte = 0x15 ∧ (s.lastCommand = some v ∨ s.lastCommand = none) := by
  have hh := hitInv h
  have hk := nakInv h
  unfold HitInv at hh
  unfold NakInv at hk
  unfold step at hs
  split at hs
  · cases hs
  simp only at hs
  cases hx : s.reader <;> simp only [hx, rScan] at hc <;> try cases hc
  all_goals simp only [hx, rHit, rNak] at hh hk
  all_goals cases op <;> simp only [readerStep, hx] at hs <;> try (cases hs; done)
  case isFalse.scanDeleting.refl.go u =>
    cases hs
    refine ⟨rfl, fun v hv => ?_, fun v hv => ?_⟩
    · simp at hv; exact hv.1
    · rcases hv with ⟨a, b⟩ | hv
      · simp [a] at b; subst b; exact ⟨hk c v rfl, hh v rfl⟩
      · exact absurd rfl hv
  case isFalse.scanClosing.refl.go u a =>
    cases a <;> simp only [closeStep] at hs
    · split at hs <;> cases hs <;>
        exact ⟨rfl, fun _ h => h, fun v hv => hv.elim (fun g => absurd g.1 g.2) (fun g => absurd rfl g)⟩
    · split at hs
      · cases hs
        refine ⟨rfl, fun _ h => h, fun v hv => ?_⟩
        rcases hv with ⟨a, b⟩ | hv
        · exact absurd a b
        · have : v = u := by
            rcases Nat.decEq v u with hne | he
            · exact absurd (by simp [upd, hne]) hv
            · exact he
          subst this
          exact ⟨hk c v rfl, hh v rfl⟩
      · cases hs
        exact ⟨rfl, fun _ h => h, fun v hv => hv.elim (fun g => absurd g.1 g.2) (fun g => absurd rfl g)⟩
    · cases hs
      exact ⟨rfl, fun _ h => h, fun v hv => hv.elim (fun g => absurd g.1 g.2) (fun g => absurd rfl g)⟩
  all_goals repeat' split at hs
  all_goals first
    | (cases hs; done)
    | (cases hs
       exact ⟨rfl, fun _ h => h, fun v hv => hv.elim (fun g => absurd g.1 g.2) (fun g => absurd rfl g)⟩)

/-- Two requests are in the table, request 1 is outstanding, and the stick answers with `b`. -/
def exCtrl (b : UInt8) : List Label :=
  [.connect true, .submit xReq .waitReport true 0, .submit xReq .waitReport true 0] ++ xSend 0 0 ++ xAck 0 0 ++
  xSend 0 1 ++ xRead [b]

theorem exCtrl_at (lv : LoopVars) (b : UInt8) (hb : b = 0x15 ∨ b = 0x18) :
    ∃ s m, Reachable lv s ∧ AtCtrl s b m 1 ∧ 0 ∈ s.inFlight := by
  let ls := (exCtrl b).dropLast
  have key : (run lv init ls).map (fun s => (s.crashed.isNone && (match s.reader with | .exec => true | _ => false) && s.lock.isNone, s.lastCommand, s.inFlight,
      match s.acts with | .ctrl b' (some m) :: _ => some (b', m.startByte) | _ => none)) =
      some (true, some 1, [0, 1], some (b, b)) := by
    cases lv <;> rcases hb with rfl | rfl <;> decide +kernel
  cases hr : run lv init ls with
  | none => rw [hr] at key; cases key
  | some s =>
    rw [hr] at key
    simp only [Option.map_some, Option.some.injEq, Prod.mk.injEq] at key
    obtain ⟨k123, k4, k5, k6⟩ := key
    simp only [Bool.and_eq_true] at k123
    obtain ⟨⟨k1, k2⟩, k3⟩ := k123
    have k2 : s.reader = .exec := by cases hx : s.reader <;> simp [hx] at k2 ⊢
    split at k6
    · rename_i b' m as heq
      simp only [Option.some.injEq, Prod.mk.injEq] at k6
      obtain ⟨rfl, -⟩ := k6
      exact ⟨s, m, ⟨_, hr⟩, ⟨by simpa using k1, k2, ⟨_, heq⟩, by simpa using k3, k4, by simp [k5]⟩, by simp [k5]⟩
    · cases k6

example : ∃ s m, Reachable .perLoop s ∧ AtCtrl s 0x15 m 1 ∧ 0 ∈ s.inFlight :=
  exCtrl_at _ _ (.inl rfl)

/-! ## C38 -/

/-- C38: the reader handles a CAN while command `u` is outstanding, visiting the table in any order.
Exactly one retransmission goroutine is started; it refers to `u` (per-iteration loop variables) or to
the variable of this loop (earlier Go). Table, channels and callers are unchanged. -/
theorem C38_can_starts_one_retransmission {lv : LoopVars} {s s1 s' : St} {m : Message} {u : Nat}
    (h : Reachable lv s) (ha : AtCtrl s 0x18 m u) (h1 : step lv s (.reader .go) = some s1)
    (hr : ScanRun lv s1 s') (he : s'.reader = .exec) :
    s'.nResend = s.nResend + 1 ∧
    s'.resend = upd s.resend s.nResend (.sleep (match lv with
      | .perIteration => .direct u | .perLoop => .loopVar s.nLoop)) ∧
    s'.inFlight = s.inFlight ∧ s'.closed = s.closed ∧ s'.got = s.got ∧ s'.client = s.client ∧
    s'.lock = none := by
  obtain ⟨hm, hq, -⟩ := enter h ha h1
  have hq := scanQ_run ha.last (free_open h ha.free) hr hq
  obtain ⟨e1, e2, e3⟩ := done_exec hq he
  have hc : m.isCAN = true := by simp [Message.isCAN, hm]
  have hn : m.isNAK = false := by simp [Message.isNAK, hm]
  refine ⟨by rw [e3.nResend]; simp [hc], ?_, by rw [e3.n.inFlight]; simp [hn], ?_, e1.got, e1.client, e2⟩
  · rw [e3.resend]; cases lv <;> simp [hc, refOf]
  · funext v; rw [e3.n.closed]; simp [hn]

/-- C38: the reader can always finish handling the CAN by its own steps. -/
theorem C38_can_is_handled {lv : LoopVars} {s : St} {m : Message} {u : Nat}
    (h : Reachable lv s) (ha : AtCtrl s 0x18 m u) : ∃ s1 s', step lv s (.reader .go) = some s1 ∧
      ScanRun lv s1 s' ∧ s'.reader = .exec ∧ s'.crashed = none := by
  have hs : ∃ s1, step lv s (.reader .go) = some s1 := by
    obtain ⟨g1, g2, ⟨as, g3⟩, -⟩ := ha
    exact ⟨_, by simp only [step, g1, Option.isSome_none, Bool.false_eq_true, if_false, readerStep, g2, g3]; rfl⟩
  obtain ⟨s1, hs⟩ := hs
  obtain ⟨-, -, h2, h3, h4⟩ := enter h ha hs
  obtain ⟨s', h5, h6⟩ := scan_completes (reachable_step h hs) h3 h2 rfl (.inl h4)
  exact ⟨s1, s', hs, h5, h6⟩

example : ∃ s m, Reachable .perIteration s ∧ AtCtrl s 0x18 m 1 ∧ 0 ∈ s.inFlight :=
  exCtrl_at _ _ (.inr rfl)

/-- C38: a retransmission is started only by a CAN and only for the last command, in every
interleaving. -/
theorem C38_only_after_can {lv : LoopVars} {s s' : St} {l : Label} (h : Reachable lv s)
    (hs : step lv s l = some s') (hn : s'.nResend ≠ s.nResend) :
    ∃ c u, rScan s.reader = some c ∧ c.byte = 0x18 ∧ (s.lastCommand = some u ∨ s.lastCommand = none) ∧
      s'.nResend = s.nResend + 1 ∧ s'.hist = .spawnResend c.loop u :: s.hist := by
  have hh := hitInv h
  have hd := (dataInv h).scan
  unfold HitInv at hh
  clear h
  revert hn
  conn_step hs
  all_goals intro hn
  all_goals first
    | exact absurd rfl hn
    | skip
  all_goals
    rename_i c u hx _ m hm hcan _
    refine ⟨c, u, by rw [hx]; rfl, ?_, hh u (by rw [hx]; rfl), rfl, rfl⟩
    have := hd c (by rw [hx]; rfl)
    rw [← this.2 _ hm]
    exact isCAN_start hcan

/-- C38 with per-iteration loop variables: what is retransmitted is what was cancelled. At any moment
every cancellation of `u` is either still waiting or has been handed to the write queue once more, and
nothing else is ever retransmitted. (Missing: loop variables shared by the iterations, see
`C38_shared_variable_partial` and `C38_violated_shared_variable`.) -/
theorem C38_retransmits_cancelled_partial {s : St} (h : Reachable .perIteration s) (u : Nat) :
    s.hist.countP (fun e => match e with | .resend v => v == u | _ => false) +
      ((List.range s.nResend).countP fun i => match s.resend i with
        | .sleep (.direct v) => v == u | _ => false) =
    s.hist.countP (fun e => match e with | .spawnResend _ v => v == u | _ => false) := by
  have hk := (spawnOf (u := u) h).count
  have hcnt : ∀ (p : Nat → Bool) n, cnt p n = (List.range n).countP p := by
    intro p n
    induction n with
    | zero => rfl
    | succ n ih => simp [cnt, ih, List.range_succ, List.countP_append, b2n]
  have e1 : isResend u = (fun e => match e with | .resend v => v == u | _ => false) := by
    funext e; cases e <;> rfl
  have e2 : isSpawn u = (fun e => match e with | .spawnResend _ v => v == u | _ => false) := by
    funext e; cases e <;> rfl
  have e3 : (fun i => dPend (s.resend i) == some u) = (fun i => match s.resend i with
        | .sleep (.direct v) => v == u | _ => false) := by
    funext i
    cases hx : s.resend i with
    | sleep r => cases r <;> simp [dPend]
    | _ => simp [dPend]
  unfold dHold nEv at hk
  rw [hcnt, e1, e2, e3] at hk
  exact hk

/-- C38: a waiting retransmission goroutine can always hand its command to the write queue. -/
theorem C38_retransmission_proceeds {lv : LoopVars} {s : St} (i : Nat) (r : Ref)
    (hn : s.crashed = none) (hi : s.resend i = .sleep r) :
    ∃ s' v, step lv s (.resend i) = some s' ∧ s'.resend i = .sending v ∧ s'.hist = .resend v :: s.hist ∧
      (∀ u, r = .direct u → v = u) := by
  cases r with
  | direct u =>
    refine ⟨_, u, by simp only [step, hn, Option.isSome_none, Bool.false_eq_true, if_false, resendStep, hi]; rfl, ?_, rfl, ?_⟩
    · simp
    · intro v h; cases h; rfl
  | loopVar l =>
    refine ⟨_, s.loopVar l, by simp only [step, hn, Option.isSome_none, Bool.false_eq_true, if_false, resendStep, hi]; rfl, ?_, rfl, ?_⟩
    · simp
    · intro v h; cases h

/-- C38 with one variable per loop: the command retransmitted is the one the scan visited last. If the
scan visited only the cancelled command, that is the cancelled command. (Missing: tables with several
entries, see `C38_violated_shared_variable`.) -/
theorem C38_shared_variable_partial {s s' : St} {i loop u : Nat} (h : Reachable .perLoop s)
    (hi : s.resend i = .sleep (.loopVar loop)) (hv : Ev.visit loop u ∈ s.hist)
    (honly : ∀ v, Ev.visit loop v ∈ s.hist → v = u)
    (hs : step .perLoop s (.resend i) = some s') :
    s'.resend i = .sending u ∧ s'.hist = .resend u :: s.hist := by
  have hl : ∀ (t : List Ev), Ev.visit loop u ∈ t → (∀ v, Ev.visit loop v ∈ t → v = u) →
      lastVisit loop t = some u := by
    intro t
    induction t with
    | nil => intro h; simp at h
    | cons e t ih =>
      intro h1 h2
      cases e
      case visit l' v =>
        simp only [lastVisit]
        split
        · rename_i hx; subst hx; rw [h2 v (by simp)]
        · rename_i hx
          refine ih ?_ (fun v hv => h2 v (List.mem_cons_of_mem _ hv))
          rcases List.mem_cons.1 h1 with h1 | h1
          · cases h1; exact absurd rfl hx
          · exact h1
      all_goals
        simp only [lastVisit]
        refine ih ?_ (fun v hv => h2 v (List.mem_cons_of_mem _ hv))
        rcases List.mem_cons.1 h1 with h1 | h1
        · cases h1
        · exact h1
  have hx : s.loopVar loop = u := loopInv h loop u (hl _ hv honly)
  unfold step at hs
  split at hs
  · cases hs
  simp only [resendStep, hi] at hs
  cases hs
  simp [hx]

/-- Command 1 is cancelled, but the scan visits command 0 after it. -/
def exWrongResend : List Label :=
  exCtrl 0x18 ++ xHit 1 0 ++ [.reader .go, .reader .go] ++ xMiss 0 ++ [.reader .stop, .resend 0]

/-- C38 is false with one variable per loop: command 1 was cancelled and command 0, which had been
acknowledged, is sent again. -/
theorem C38_violated_shared_variable : ∃ s, Reachable .perLoop s ∧
    Ev.spawnResend 1 1 ∈ s.hist ∧ Ev.resend 0 ∈ s.hist ∧ Ev.resend 1 ∉ s.hist ∧
    (∀ i, s.resend i ≠ .sleep (.loopVar 1)) := by
  have key : (run .perLoop init exWrongResend).map (fun s =>
      (s.hist.contains (Ev.spawnResend 1 1), s.hist.contains (Ev.resend 0),
       s.hist.contains (Ev.resend 1), s.nResend, s.resend 0)) =
      some (true, true, false, 1, .sending 0) := by decide +kernel
  cases hr : run .perLoop init exWrongResend with
  | none => rw [hr] at key; cases key
  | some s =>
    rw [hr] at key
    simp only [Option.map_some, Option.some.injEq, Prod.mk.injEq] at key
    refine ⟨s, ⟨_, hr⟩, by simpa using key.1, by simpa using key.2.1, by simpa using key.2.2.1, ?_⟩
    intro i hi
    cases i with
    | zero => rw [key.2.2.2.2] at hi; cases hi
    | succ i =>
      have := (fresh ⟨_, hr⟩).resend (i + 1) (by omega)
      rw [this] at hi; cases hi

example : ∃ s, Reachable .perLoop s ∧ s.resend 0 = .sleep (.loopVar 1) ∧
    Ev.visit 1 1 ∈ s.hist ∧ ∀ v, Ev.visit 1 v ∈ s.hist → v = 1 := by
  let ls := exCtrl 0x18 ++ xHit 1 0 ++ [.reader .go]
  have key : (run .perLoop init ls).map (fun s =>
      (s.resend 0, s.hist.filter (fun e => match e with | .visit 1 _ => true | _ => false))) =
      some (.sleep (.loopVar 1), [.visit 1 1]) := by decide +kernel
  cases hr : run .perLoop init ls with
  | none => rw [hr] at key; cases key
  | some s =>
    rw [hr] at key
    simp only [Option.map_some, Option.some.injEq, Prod.mk.injEq] at key
    have hm : ∀ v, Ev.visit 1 v ∈ s.hist ↔ v = 1 := by
      intro v
      have : Ev.visit 1 v ∈ s.hist.filter (fun e => match e with | .visit 1 _ => true | _ => false) ↔
          Ev.visit 1 v ∈ s.hist := by simp
      rw [← this, key.2]; simp
    exact ⟨s, ⟨_, hr⟩, key.1, (hm 1).2 rfl, fun v hv => (hm v).1 hv⟩

end Verif.Props
