import Verif.Lemmas.NodeState
import Verif.Lemmas.NodeTerm

/-
C52 – C59, C70, C71: what happens to one node.
-/

set_option linter.unusedSimpArgs false
set_option linter.unusedVariables false
set_option maxHeartbeats 4000000

namespace Verif.Props

open Verif.Go Verif.Model Verif.Spec Verif.Lemmas.NodeM

/-! ## Common part -/

/-- Entry `k` of the node's boolean states. -/
def boolState (n : Node) (k : List Char) : Option Bool := n.stateBool.bind (·.get k)
/-- Entry `k` of the node's numeric states. -/
def floatState (n : Node) (k : List Char) : Option Rat := n.stateFloat.bind (·.get k)

/-- The reports applied in a run, oldest first. -/
def reportsOf (ls : List NLabel) : List Report :=
  ls.filterMap fun l => match l with
    | .report r => some r
    | _ => none

/-- A node as `New` and `Setup` leave it. -/
def readyNode (id : Int) : Node := { newNode id with hasConn := true }

theorem readyNode_fresh (id : Int) : FreshOk (readyNode id) := by
  constructor <;> simp [readyNode, newNode]

theorem readyNode_usable (id : Int) : Usable (readyNode id) := by
  constructor <;> rfl

/-- Device classes and devices for the examples: generic class 0x10 is a binary switch, generic class
0x31 is unknown, and one device has the additional class 0x70. -/
def demoDB : DB :=
  { mandatory := fun g _ => if g = 0x10 then some [⟨0x25, true, false, true, []⟩] else none
    device := fun a _ _ => if a = "0086".toList then
      some { brand := "Aeon".toList, product := "Switch".toList, description := [], classes := [⟨0x70, true, false, true, []⟩],
             manufacturerID := "0086".toList, productType := [], productID := [] } else none }

/-- Protocol info of a mains powered switch. -/
def demoInfo (listening : Bool) : ProtocolInfo :=
  { (default : ProtocolInfo) with listening := listening, generic := 0x10, specific := 0x01 }

def demoMan : ManufacturerSpecific := ⟨"0086".toList, "0003".toList, "0006".toList⟩

/-- Step of the first identification without an answer. -/
def go : NLabel := .ident 0 .nothing

/-- A complete identification of a listening switch. -/
def demoIdent (k : Nat) : List NLabel :=
  [.identify, go, .ident 0 (.info (demoInfo true)), go, go, go, go,
   .ident 0 (.report (.manufacturerSpecific demoMan)), go, go, go,
   .ident 0 (.report (.multiChannelEndpoints ⟨false, false, k⟩)), go, go, go, go, go, go, go, go, go, go,
   go, go, go, go, go, go, go, go]

/-! ## C52 -/

theorem lastSaid_cons {α : Type} (says : Report → Option α) (b : Option α) (r : Report) (rs : List Report) :
    lastSaid says b (r :: rs) = lastSaid says ((says r).or b) rs := by
  unfold lastSaid
  rw [List.reverse_cons, List.findSome?_append]
  cases rs.reverse.findSome? says with
  | some v => rfl
  | none => cases h : says r <;> simp [List.findSome?, h]

theorem run_says {α : Type} {db : DB} (read : Node → Option α) (says : Report → Option α)
    (hstep : ∀ s l s', WakeInv s → nodeStep db s l = some s' → s'.crashed = none →
      read s'.node = ((reportOf l).bind says).or (read s.node)) (ls : List NLabel) :
    ∀ s s', WakeInv s → nodeRun db s ls = some s' → s'.crashed = none →
      read s'.node = lastSaid says (read s.node) (reportsOf ls) := by
  induction ls with
  | nil => intro s s' hw h hc; cases h; rfl
  | cons l ls ih =>
    intro s s' hw h hc
    simp only [nodeRun] at h
    cases hl : nodeStep db s l with
    | none => rw [hl] at h; cases h
    | some s1 =>
      rw [hl] at h
      have hc1 : s1.crashed = none := by
        cases ls with
        | nil => cases h; exact hc
        | cons l' ls =>
          simp only [Option.bind_some, nodeRun] at h
          cases h2 : nodeStep db s1 l' with
          | none => rw [h2] at h; cases h
          | some s2 => exact crashed_mono h2
      have e := ih s1 s' (wake_step hw hl) h hc
      rw [e, hstep s l s1 hw hl hc1]
      cases l with
      | report r => simp only [reportsOf, List.filterMap_cons, lastSaid_cons]; rfl
      | _ => rfl

/-- C52: at any later time each boolean state other than the alarm has the value of the last report
that concerns it, or its old value; whatever alarms, identifications and wake-ups come in between. -/
theorem C52_bool_state_is_last_report (db : DB) (n : Node) (ls : List NLabel) (s : NSt)
    (h : nodeRun db (NSt.start n) ls = some s) (hc : s.crashed = none) (k : List Char)
    (hk : k ≠ "alarm".toList) :
    boolState s.node k = lastSaid (fun r => saysBool r k) (boolState n k) (reportsOf ls) :=
  run_says (db := db) (fun n => boolState n k) (fun r => saysBool r k)
    (fun _ _ _ _ hs hc => (step_says hs hc).1 k hk) ls _ s (wakeInv_start n) h hc

/-- C52: the same for numeric states other than those of alarms. -/
theorem C52_float_state_is_last_report (db : DB) (n : Node) (ls : List NLabel) (s : NSt)
    (h : nodeRun db (NSt.start n) ls = some s) (hc : s.crashed = none) (k : List Char)
    (hk : k ≠ "alarm".toList) (hk' : k ≠ "alarmLastType".toList) :
    floatState s.node k = lastSaid (fun r => saysFloat r k) (floatState n k) (reportsOf ls) :=
  run_says (db := db) (fun n => floatState n k) (fun r => saysFloat r k)
    (fun _ _ _ _ hs hc => (step_says hs hc).2 k hk hk') ls _ s (wakeInv_start n) h hc

/-- C52: every report that carries a state pushes exactly one event, all others but alarms none. -/
theorem C52_one_event_per_state_report (db : DB) (s s' : NSt) (r : Report)
    (h : nodeStep db s (.report r) = some s') (hc : s'.crashed = none) (ha : ∀ a, r ≠ .alarm a) :
    s'.hist = if isState r then .pushed :: s.hist else s.hist := by
  unfold nodeStep at h
  split at h
  · cases h
  simp only at h
  split at h
  · injection h with h; subst h
    unfold reportStep at hc ⊢
    split at hc
    · exact absurd rfl (ha _)
    · cases s.awake <;> rfl
    · simp only at hc ⊢
      cases hs : s.node.applyState r with
      | error p => rw [hs] at hc; cases hc
      | ok p =>
        obtain ⟨n, b⟩ := p
        have e := (applyState_says hs).2.2
        rw [← e]
        cases b <;> rfl
  · cases h

/-- C52: reports are always processed once the lock is free: nothing else blocks them, and they do not
panic. -/
theorem C52_reports_are_processed (db : DB) (n : Node) (s : NSt) (hn : FreshOk n) (hu : Usable n)
    (h : NReach db n s) (hl : s.lock = none) (r : Report) :
    ∃ s', nodeStep db s (.report r) = some s' ∧ s'.crashed = none := by
  have hs : ∃ s', nodeStep db s (.report r) = some s' := by
    simp [nodeStep, (usable hn hu h).2, hl]
  obtain ⟨s', hs⟩ := hs
  exact ⟨s', hs, (usable hn hu (nreach_step h hs)).2⟩

/-- A run with switch reports, a sensor report, an alarm with its pulse and a wake-up, interleaved with
identification. -/
def demoReports : List NLabel :=
  [.report (.switchBinaryV1 true true), .identify, go, .report (.switchMultilevelV1 42 true),
   .report (.alarm ⟨7, 0xFF, 0, 0, 0, 0xFF⟩), .ident 0 (.info (demoInfo false)),
   .report (.sensorMultiLevel ⟨1, 2, 0, 1, 21, "Temperature".toList, "C".toList⟩), go, go, go, go, go, go,
   .report .wakeUp, .report (.switchBinaryV2 false true 0)].dropLast ++ [.proc 1, .proc 1, .proc 0,
   .report (.switchBinaryV2 false true 0)]

example : ((nodeRun demoDB (NSt.start (readyNode 3)) demoReports).map fun s =>
    (s.crashed.isNone && boolState s.node "on".toList == some false &&
      floatState s.node "level".toList == some 42 && floatState s.node "temperature_c".toList == some 21 &&
      boolState s.node "alarm".toList == some false && floatState s.node "alarmLastType".toList == some 7)) =
    some true := by decide +kernel

/-! ## C53 -/

/-- C53: an active alarm is shown at once, with its type, and a pulse starts. -/
theorem C53_alarm_is_raised (db : DB) (n : Node) (s s' : NSt) (a : Alarm) (hr : NReach db n s)
    (ha : a.status = 0xFF) (h : nodeStep db s (.report (.alarm a)) = some s') (hc : s'.crashed = none) :
    boolState s'.node "alarm".toList = some true ∧
    (a.type ≠ 0 → floatState s'.node "alarm".toList = some (a.type.toNat : Rat) ∧
      floatState s'.node "alarmLastType".toList = some (a.type.toNat : Rat)) ∧
    s'.proc s.nProc = .pulse ∧ s'.hist = .pushed :: s.hist := by
  rcases step_alarm (wakeInv hr) h hc with ⟨a', e, -, e2, e3⟩ | ⟨j, e, -⟩ | ⟨-, -, -, -, e⟩
  · cases e
    obtain ⟨-, q1, q2⟩ := alarmOn_ok e2
    refine ⟨(q1 _).trans (if_pos rfl), fun ht => ⟨?_, ?_⟩, by rw [e3]; simp [updN], ?_⟩
    · exact (q2 _).trans (if_pos ⟨ht, .inl rfl⟩)
    · exact (q2 _).trans (if_pos ⟨ht, .inr rfl⟩)
    · unfold nodeStep at h
      split at h
      · cases h
      · simp only at h
        split at h
        · cases h
          cases hm : s.node.alarmOn a with
          | error p => simp only [reportStep, ha, if_true, hm] at hc; cases hc
          | ok m => simp only [reportStep, ha, if_true, hm, NSt.push]
        · cases h
  · cases e
  · exact absurd ha (e a rfl)

/-- C53: when the pulse ends, the alarm is cleared and the last type kept. -/
theorem C53_alarm_is_cleared (db : DB) (s s' : NSt) (j : Nat) (hp : s.proc j = .pulse)
    (h : nodeStep db s (.proc j) = some s') (hc : s'.crashed = none) :
    boolState s'.node "alarm".toList = some false ∧ floatState s'.node "alarm".toList = some 0 ∧
    floatState s'.node "alarmLastType".toList = floatState s.node "alarmLastType".toList ∧
    s'.proc j = .done ∧ s'.hist = .pushed :: s.hist := by
  unfold nodeStep at h
  split at h
  · cases h
  simp only [procStep, hp, NSt.push] at h
  split at h
  · split at h
    · cases h; cases hc
    · cases h
      have q := alarmOff_ok (by assumption)
      refine ⟨(q.2.1 _).trans (if_pos rfl), (q.2.2 _).trans (if_pos rfl), (q.2.2 _).trans (if_neg (by decide)),
        by simp [updN], rfl⟩
  · cases h

/-- C53: an alarm report with another status changes nothing. -/
theorem C53_other_status_ignored (db : DB) (s s' : NSt) (a : Alarm) (ha : a.status ≠ 0xFF)
    (h : nodeStep db s (.report (.alarm a)) = some s') : s' = s := by
  unfold nodeStep at h
  split at h
  · cases h
  simp only [reportStep, if_neg ha] at h
  split at h
  · cases h; rfl
  · cases h

/-- C53: the alarm is shown only while the second of some active alarm has not passed. -/
theorem C53_alarm_shown_only_during_pulse (db : DB) (n : Node) (s : NSt)
    (hn : boolState n "alarm".toList ≠ some true) (h : NReach db n s) (hc : s.crashed = none)
    (ha : boolState s.node "alarm".toList = some true) : ∃ j, s.proc j = .pulse :=
  alarmInv hn h hc ha

/-- What an alarm report says about the last type. -/
def saysLastType (r : Report) : Option Rat :=
  match r with
  | .alarm a => if a.status = 0xFF ∧ a.type ≠ 0 then some (a.type.toNat : Rat) else none
  | _ => none

/-- C53: the last type is that of the last active alarm with a type. -/
theorem C53_last_type_remembered (db : DB) (n : Node) (ls : List NLabel) (s : NSt)
    (h : nodeRun db (NSt.start n) ls = some s) (hc : s.crashed = none) :
    floatState s.node "alarmLastType".toList =
      lastSaid saysLastType (floatState n "alarmLastType".toList) (reportsOf ls) := by
  refine run_says (db := db) (fun n => floatState n "alarmLastType".toList) saysLastType ?_ ls _ s
    (wakeInv_start n) h hc
  intro s l s' hw hs hc
  rcases step_alarm hw hs hc with ⟨a, e, e1, e2, e3⟩ | ⟨j, e, -, e2, -⟩ | ⟨-, -, e, -, e2⟩
  · subst e
    have q := (alarmOn_ok e2).2.2 kAlarmLast
    show getF s'.node kAlarmLast = _
    rw [q]
    simp only [reportOf, Option.bind_some, saysLastType, e1, true_and]
    by_cases ht : a.type = 0
    · simp only [ht, ne_eq, not_true_eq_false, false_and, if_false, Option.none_or]; rfl
    · simp only [ht, ne_eq, not_false_eq_true, true_and, if_true, Option.some_or]; simp
  · subst e
    have q := (alarmOff_ok e2).2.2 kAlarmLast
    show getF s'.node kAlarmLast = _
    rw [q, if_neg (by decide)]
    rfl
  · show getF s'.node kAlarmLast = _
    rw [e]
    cases l with
    | report r =>
      cases r <;> try rfl
      rename_i a
      have := e2 a rfl
      simp only [reportOf, Option.bind_some, saysLastType, this, false_and, if_false, Option.none_or]
      rfl
    | _ => rfl

/-- C53: a pending pulse can always end, however the lock is held: at most two steps of the goroutine
that holds the lock come before. -/
theorem C53_pulse_can_end (db : DB) (n : Node) (s : NSt) (j : Nat) (hn : FreshOk n) (hu : Usable n)
    (h : NReach db n s) (hp : s.proc j = .pulse) :
    ∃ ls s', ls.length ≤ 3 ∧ (∀ l ∈ ls, ∃ i, l = .proc i) ∧ nodeRun db s ls = some s' ∧ s'.proc j = .done ∧
      boolState s'.node "alarm".toList = some false := by
  have finish : ∀ s, NReach db n s → s.proc j = .pulse → s.lock = none →
      ∃ s', nodeStep db s (.proc j) = some s' ∧ s'.proc j = .done ∧ boolState s'.node "alarm".toList = some false := by
    intro s h hp hl
    obtain ⟨us, uc⟩ := usable hn hu h
    obtain ⟨m, hm⟩ := alarmOff_some us.mapB us.mapF
    have hs : nodeStep db s (.proc j) = some { s.push with node := m, proc := updN s.proc j .done } := by
      simp [nodeStep, uc, procStep, hp, hl, hm]
    have := C53_alarm_is_cleared db s _ j hp hs uc
    exact ⟨_, hs, this.2.2.2.1, this.1⟩
  have second : ∀ s i, NReach db n s → s.proc j = .pulse → s.lock = some i → s.proc i = .wakeNil →
      ∃ s1, nodeStep db s (.proc i) = some s1 ∧ s1.proc j = .pulse ∧ s1.lock = none := by
    intro s i h hp hl hi
    have uc := (usable hn hu h).2
    have hij : j ≠ i := by rintro rfl; rw [hp] at hi; cases hi
    refine ⟨_, by simp only [nodeStep, uc, procStep, hi]; rfl, ?_, rfl⟩
    simp [updN, hij, hp]
  cases hl : s.lock with
  | none =>
    obtain ⟨s', h1, h2, h3⟩ := finish s h hp hl
    exact ⟨[.proc j], s', by simp, by simp, by simp [nodeRun, h1], h2, h3⟩
  | some i =>
    have hw := wakeInv h
    rcases hw.held i hl with hi | hi
    · obtain ⟨c, hc1, hc2⟩ := hw.closing i hi
      have uc := (usable hn hu h).2
      have hij : j ≠ i := by rintro rfl; rw [hp] at hi; cases hi
      have hs : nodeStep db s (.proc i) = some { s with closed := updN s.closed c true, proc := updN s.proc i .wakeNil } := by
        simp [nodeStep, uc, procStep, hi, hc1, hc2]
      have r1 := nreach_step h hs
      obtain ⟨s2, g1, g2, g3⟩ := second _ i r1 (by simp [updN, hij, hp]) hl (by simp [updN])
      have r2 := nreach_step r1 g1
      obtain ⟨s', h1, h2, h3⟩ := finish s2 r2 g2 g3
      refine ⟨[.proc i, .proc i, .proc j], s', by simp, by simp, ?_, h2, h3⟩
      simp [nodeRun, hs, g1, h1]
    · obtain ⟨s2, g1, g2, g3⟩ := second _ i h hp hl hi
      have r2 := nreach_step h g1
      obtain ⟨s', h1, h2, h3⟩ := finish s2 r2 g2 g3
      exact ⟨[.proc i, .proc j], s', by simp, by simp, by simp [nodeRun, g1, h1], h2, h3⟩

/-- Two alarms, the second while the first is shown: the end of the first pulse hides the second alarm. -/
example : ((nodeRun demoDB (NSt.start (readyNode 3))
      [.report (.alarm ⟨7, 0xFF, 0, 0, 0, 0xFF⟩), .report (.alarm ⟨6, 0xFF, 0, 0, 0, 0xFF⟩), .proc 0]).map fun s =>
      (s.crashed.isNone && decide (s.proc 1 = .pulse) && boolState s.node "alarm".toList == some false &&
        floatState s.node "alarmLastType".toList == some 6)) = some true := by decide +kernel

/-! ## C54 -/

/-- The reports in which the device says that it does not know its state, as decoded. -/
def saysUnknown (r : Report) : Prop :=
  newSwitchBinaryV1 [0xFE] = .ok r ∨ newSwitchMultilevelV1 [0xFE] = .ok r ∨
    (∃ b c, newSwitchBinaryV2 [0xFE, b, c] = .ok r) ∨ ∃ b c, newSwitchMultilevelV4 [0xFE, b, c] = .ok r

/-- C54 is false, for every node: "unknown" from a binary switch turns the shown state off, from the other
switches it turns it on, and the level becomes 100. -/
theorem C54_violated_unknown_is_shown (db : DB) (s s' : NSt) (r : Report) (hr : saysUnknown r)
    (h : nodeStep db s (.report r) = some s') (hc : s'.crashed = none) :
    (newSwitchBinaryV1 [0xFE] = .ok r ∧ boolState s'.node "on".toList = some false) ∨
    ((∃ b c, newSwitchBinaryV2 [0xFE, b, c] = .ok r) ∧ boolState s'.node "on".toList = some true) ∨
    (boolState s'.node "on".toList = some true ∧ floatState s'.node "level".toList = some 100) := by
  obtain ⟨q1, q2⟩ := step_says h hc
  have e1 := q1 kOn (by decide)
  have e2 := q2 kLevel (by decide) (by decide)
  have f1 : boolState s'.node "on".toList = getB s'.node kOn := rfl
  have f2 : floatState s'.node "level".toList = getF s'.node kLevel := rfl
  rw [f1, f2, e1, e2]
  rcases hr with hr | hr | ⟨b, c, hr⟩ | ⟨b, c, hr⟩
  · left; refine ⟨hr, ?_⟩; cases hr; rfl
  · right; right; cases hr; exact ⟨rfl, rfl⟩
  · right; left; refine ⟨⟨b, c, hr⟩, ?_⟩; cases hr; rfl
  · right; right; cases hr; exact ⟨rfl, rfl⟩

/-- C54, the part that holds: "unknown" leaves everything but `on` and `level` alone.
Missing: `on` and `level` themselves (see the violation above). -/
theorem C54_other_keys_kept_partial (db : DB) (n : Node) (s s' : NSt) (r : Report) (hr : saysUnknown r)
    (hreach : NReach db n s) (h : nodeStep db s (.report r) = some s') (hc : s'.crashed = none) :
    (∀ k, k ≠ "on".toList → boolState s'.node k = boolState s.node k) ∧
    (∀ k, k ≠ "level".toList → floatState s'.node k = floatState s.node k) := by
  obtain ⟨q1, q2⟩ := step_says h hc
  have hna : ∀ a, r ≠ .alarm a := by
    rintro a rfl
    rcases hr with hr | hr | ⟨b, c, hr⟩ | ⟨b, c, hr⟩ <;> cases hr
  have hal := step_alarm (wakeInv hreach) h hc
  have hal : getB s'.node kAlarm = getB s.node kAlarm ∧ getF s'.node kAlarm = getF s.node kAlarm ∧
      getF s'.node kAlarmLast = getF s.node kAlarmLast := by
    rcases hal with ⟨a, e, -⟩ | ⟨j, e, -⟩ | ⟨e1, e2, e3, -⟩
    · cases e; exact absurd rfl (hna a)
    · cases e
    · exact ⟨e1, e2, e3⟩
  have none1 : ∀ k, k ≠ "on".toList → saysBool r k = none := by
    intro k hk; simp [saysBool, hk]; intro h; exact absurd h hk
  have none2 : ∀ k, k ≠ "level".toList → saysFloat r k = none := by
    intro k hk
    rcases hr with hr | hr | ⟨b, c, hr⟩ | ⟨b, c, hr⟩ <;> cases hr <;> simp only [saysFloat, if_neg hk]
  constructor
  · intro k hk
    by_cases ha : k = kAlarm
    · subst ha; exact hal.1
    · have := q1 k ha
      simp only [reportOf, Option.bind_some, none1 k hk, Option.none_or] at this
      exact this
  · intro k hk
    by_cases ha : k = kAlarm
    · subst ha; exact hal.2.1
    · by_cases ha' : k = kAlarmLast
      · subst ha'; exact hal.2.2
      · have := q2 k ha ha'
        simp only [reportOf, Option.bind_some, none2 k hk, Option.none_or] at this
        exact this

example : saysUnknown (.switchMultilevelV1 100 false) ∧
    ((nodeRun demoDB (NSt.start (readyNode 3)) [.report (.switchMultilevelV1 7 true),
        .report (.switchMultilevelV1 100 false)]).map fun s =>
      (s.crashed.isNone && floatState s.node "level".toList == some 100)) = some true :=
  ⟨.inr (.inl rfl), by decide +kernel⟩

/-! ## C55 -/

/-- C55: a node is marked identified only when everything is known. -/
theorem C55_identified_means_complete (db : DB) (n : Node) (s : NSt) (hn : FreshOk n) (h : NReach db n s)
    (hi : s.node.identified = true) :
    s.node.protocolInfo.isSome = true ∧ s.node.manufacturer.isSome = true ∧ s.node.endpoints.isSome = true ∧
      s.node.statesOk = true := by
  have q := idInv hn h
  have := q.ok (q.marked hi)
  exact ⟨this.1, this.2.1, this.2.2, q.marked hi⟩

/-- C55: an identification ends only with the node marked identified. -/
theorem C55_ends_only_identified (db : DB) (n : Node) (s : NSt) (hn : FreshOk n) (h : NReach db n s) (i : Nat)
    (hi : s.ident i = .done) : s.node.identified = true :=
  (idInv hn h).done i hi

/-- C55: until then it goes on: unless it waits for a wake-up, its next step is possible as soon as the
lock is free, whatever the answer. -/
theorem C55_keeps_going (db : DB) (n : Node) (s : NSt) (hn : FreshOk n) (hu : Usable n) (h : NReach db n s)
    (i : Nat) (a : Answer) (hi : i < s.nIdent) (hd : s.ident i ≠ .done)
    (ha : s.ident i ≠ .absent) (hw : ∀ p c, s.ident i ≠ .awWait p c)
    (hl : s.lock = none) : ∃ s', nodeStep db s (.ident i a) = some s' := by
  have uc := (usable hn hu h).2
  have al := (wakeInv h).alive i
  unfold nodeStep
  rw [uc]
  simp only [Option.isSome_none, Bool.false_eq_true, if_false, identStep]
  cases hp : s.ident i with
  | absent => exact absurd hp ha
  | done => exact absurd hp hd
  | awWait p c => exact absurd hp (hw p c)
  | query t =>
    cases t with
    | nil => simp [hl]
    | cons v t =>
      have ite : ∀ (c : Prop) [Decidable c] (a b : Option NSt), (∃ x, a = some x) → (∃ x, b = some x) →
          ∃ x, (if c then a else b) = some x := by
        intro c _ a b ha hb; split <;> assumption
      exact ite _ _ _ ⟨_, rfl⟩ (ite _ _ _ ⟨_, rfl⟩ (ite _ _ _ ⟨_, rfl⟩ ⟨_, rfl⟩))
  | send p => cases p <;> simp [hl] <;> split <;> simp
  | reply p =>
    cases p with
    | states => rw [hp] at al; cases al
    | manufacturer => simp only [hl, if_true]; split <;> simp
    | endpoints => simp only [hl, if_true]; split <;> simp
  | _ => simp [hl] <;> (try split) <;> simp

example : ((nodeRun demoDB (NSt.start (readyNode 3)) (demoIdent 3).dropLast).map fun s =>
    (s.crashed.isNone && s.node.identified)) = some true := by decide +kernel


/-! ## C56 -/

/-- C56, the part that holds: with one identification, the classes of an identified node are exactly the
mandatory ones of its device class. Missing: the classes of the device database (see below). -/
theorem C56_classes_are_mandatory_partial (db : DB) (n : Node) (s : NSt) (hn : FreshOk n)
    (hf : n.identified = false) (h : NReach db n s) (h1 : s.nIdent ≤ 1) (hi : s.node.identified = true) :
    ∃ p, s.node.protocolInfo = some p ∧ s.node.classes = db.mandatory p.generic p.specific := by
  have q := oneInv hn hf h h1
  have d := idInv hn h
  obtain ⟨i, hd⟩ := q.fin hi
  obtain ⟨p, hp⟩ := Option.isSome_iff_exists.1 (d.ok (d.marked hi)).1
  exact ⟨p, hp, q.cls i (by rw [hd]; rfl) (d.marked hi) p hp⟩

/-- C56 is false: a class that the device database lists and that is not mandatory is unknown to the node
after identification, so `HasCommand` denies it. -/
theorem C56_violated_database_classes_forgotten (db : DB) (n : Node) (s : NSt) (hn : FreshOk n)
    (hf : n.identified = false) (h : NReach db n s) (h1 : s.nIdent ≤ 1) (hi : s.node.identified = true)
    (c : UInt8) (hc : ∀ g sp cs, db.mandatory g sp = some cs → ∀ v ∈ cs, v.id ≠ c) :
    s.node.hasCommand c = false := by
  obtain ⟨p, hp, hcl⟩ := C56_classes_are_mandatory_partial db n s hn hf h h1 hi
  unfold Node.hasCommand
  rw [hcl]
  cases hm : db.mandatory p.generic p.specific with
  | none => rfl
  | some cs =>
    have := hc _ _ _ hm
    simp only [List.any_eq_false, beq_iff_eq]
    exact this

/-- The device of the run is in the database with class 0x70, and the node is identified without it. -/
example : ((nodeRun demoDB (NSt.start (readyNode 3)) (demoIdent 3).dropLast).map fun s =>
    (s.crashed.isNone && s.node.identified && (s.node.manufacturer == some demoMan) &&
      ((demoDB.device demoMan.manufacturer demoMan.type demoMan.id).any fun d => d.classes.any (·.id == 0x70)) &&
      !s.node.hasCommand 0x70 && s.node.hasCommand 0x25)) = some true := by decide +kernel

/-! ## C57 -/

/-- C57, for nodes that answer: an identification whose requests are answered takes at most
`10 (M + D) + 153` steps, where `M` and `D` bound the class lists of the database. Other goroutines may
do anything in between. Missing: nodes that do not answer (see below). -/
theorem C57_terminates_partial (db : DB) (M D : Nat) (hb : DBBound db M D) (n : Node) (s0 s1 s2 : NSt)
    (h0 : NReach db n s0) (hf : s0.nIdent = 0) (hs : nodeStep db s0 .identify = some s1) (ls : List NLabel)
    (hr : AnsweredRun db s1 ls s2) (hc : s2.crashed = none) :
    (ls.countP fun l => match l with | .ident .. => true | _ => false) ≤ 10 * (M + D) + 153 := by
  obtain ⟨w1, w2, w3, w4⟩ := started h0 hf hs M D
  have := (answered_run hb ls s1 s2 w1 w2 hr hc).1
  have e : (fun l => match l with | .ident .. => true | _ => false) = isIdent := by
    funext l; cases l <;> rfl
  rw [e]
  omega

/-- C57, for nodes that answer: at most three requests and one for each class are sent. -/
theorem C57_requests_bounded_partial (db : DB) (M D : Nat) (hb : DBBound db M D) (n : Node) (s0 s1 s2 : NSt)
    (h0 : NReach db n s0) (hf : s0.nIdent = 0) (hs : nodeStep db s0 .identify = some s1) (ls : List NLabel)
    (hr : AnsweredRun db s1 ls s2) (hc : s2.crashed = none) :
    (s2.hist.countP fun e => match e with | .sent .. => true | _ => false) ≤ 3 + (M + D) := by
  obtain ⟨w1, w2, w3, w4⟩ := started h0 hf hs M D
  have := (answered_run hb ls s1 s2 w1 w2 hr hc).2
  have e : (fun e => match e with | .sent .. => true | _ => false) = isSent := by
    funext l; cases l <;> rfl
  rw [e]
  unfold nSent at this w4
  omega

/-- Every step of the complete identification is answered as the theorems above require, and they apply
to it with `M = D = 1`. -/
theorem demo_bound : DBBound demoDB 1 1 := by
  constructor
  · intro g s cs h
    simp only [demoDB] at h
    split at h
    · cases h; simp
    · cases h
  · intro a b c d h
    simp only [demoDB] at h
    split at h
    · cases h; simp
    · cases h

/-- A check of `Answered` that can be computed. -/
def answeredB (s : NSt) (l : NLabel) : Bool :=
  match l with
  | .ident i a =>
    match s.ident i with
    | .info => match a with
      | .info _ => true
      | _ => false
    | .reply .manufacturer => match a with
      | .report (.manufacturerSpecific _) => true
      | _ => false
    | .reply .endpoints => match a with
      | .report (.multiChannelEndpoints _) => true
      | _ => false
    | _ => true
  | .identify => false
  | _ => true

theorem answeredB_sound {s : NSt} {l : NLabel} (h : answeredB s l = true) : Answered s l ∧ l ≠ .identify := by
  cases l with
  | identify => cases h
  | report r => exact ⟨trivial, by simp⟩
  | proc j => exact ⟨trivial, by simp⟩
  | setup => exact ⟨trivial, by simp⟩
  | ident i a =>
    refine ⟨?_, by simp⟩
    unfold answeredB at h
    unfold Answered
    simp only at h ⊢
    repeat' split at h
    all_goals first
      | (cases h; done)
      | (simp_all; done)
      | (split <;> simp_all)

/-- Runs an answered run. -/
def answeredRunB (db : DB) (s : NSt) : List NLabel → Option NSt
  | [] => some s
  | l :: ls => if answeredB s l then (nodeStep db s l).bind fun s => answeredRunB db s ls else none

theorem answeredRunB_sound {db : DB} (ls : List NLabel) :
    ∀ s s', answeredRunB db s ls = some s' → AnsweredRun db s ls s' := by
  induction ls with
  | nil => intro s s' h; cases h; rfl
  | cons l ls ih =>
    intro s s' h
    unfold answeredRunB at h
    split at h
    · rename_i ha
      cases hs : nodeStep db s l with
      | none => rw [hs] at h; cases h
      | some s1 =>
        rw [hs] at h
        exact ⟨(answeredB_sound ha).1, (answeredB_sound ha).2, s1, hs, ih s1 s' h⟩
    · cases h

example : ∃ s1 s2, nodeStep demoDB (NSt.start (readyNode 3)) .identify = some s1 ∧
    AnsweredRun demoDB s1 (demoIdent 3).tail.dropLast s2 ∧ s2.node.identified = true ∧ s2.crashed = none := by
  have h : ((nodeStep demoDB (NSt.start (readyNode 3)) .identify).bind fun s1 =>
      (answeredRunB demoDB s1 (demoIdent 3).tail.dropLast).map fun s => (s.node.identified && s.crashed.isNone)) =
      some true := by decide +kernel
  cases h1 : nodeStep demoDB (NSt.start (readyNode 3)) .identify with
  | none => rw [h1] at h; cases h
  | some s1 =>
    rw [h1] at h
    simp only [Option.bind_some] at h
    cases h2 : answeredRunB demoDB s1 (demoIdent 3).tail.dropLast with
    | none => rw [h2] at h; cases h
    | some s2 =>
      rw [h2] at h
      simp only [Option.map_some, Option.some.injEq, Bool.and_eq_true, Option.isNone_iff_eq_none] at h
      exact ⟨s1, s2, rfl, answeredRunB_sound _ _ _ h2, h.1, h.2⟩

/-- C57 is false for a node of a known device class that does not report endpoints: it is never
identified, however long the identification goes on, and no identification of it ends. -/
theorem C57_violated_never_identified (db : DB) (id : Int) (ls : List NLabel) (s : NSt)
    (hl : ∀ l ∈ ls, Silent db l) (h : nodeRun db (NSt.start (readyNode id)) ls = some s) :
    s.node.identified = false ∧ s.node.endpoints = none ∧ ∀ i, s.ident i ≠ .done := by
  have key : ∀ ls s0 s, (∀ l ∈ ls, Silent db l) → SilentInv db s0 → nodeRun db s0 ls = some s → SilentInv db s := by
    intro ls
    induction ls with
    | nil => intro s0 s _ hp h; cases h; exact hp
    | cons l ls ih =>
      intro s0 s hl hp h
      simp only [nodeRun] at h
      cases hs : nodeStep db s0 l with
      | none => rw [hs] at h; cases h
      | some s1 =>
        rw [hs] at h
        exact ih s1 s (fun l' h' => hl l' (List.mem_cons_of_mem _ h'))
          (silent_step hp (hl l List.mem_cons_self) hs) h
  have := key ls _ s hl (by constructor <;> simp [NSt.start, readyNode, newNode, classed, lvl]) h
  refine ⟨this.mark, this.eps, fun i hd => ?_⟩
  have q := this.low i
  rw [hd] at q
  simp [lvl] at q

/-- One round of the endless loop: the endpoint request is sent and not answered. -/
def endlessRound : List NLabel := [go, go, go, go, go, go, go, go]

/-- Up to the first pause. -/
def endlessStart : List NLabel :=
  [.identify, go, .ident 0 (.info (demoInfo true)), go, go, go, go,
   .ident 0 (.report (.manufacturerSpecific demoMan)), go, go, go, go]

/-- The state in the pauses. -/
structure Pause (s : NSt) : Prop where
  alive : s.crashed = none
  free : s.lock = none
  at_ : s.ident 0 = .sleep
  conn : s.node.hasConn = true
  awake : s.node.isAwake = true
  eps : s.node.endpoints = none
  man : s.node.manufacturer.isSome = true
  inf : ∃ p, s.node.protocolInfo = some p ∧ (demoDB.mandatory p.generic p.specific).isSome = true

theorem endless_round {s : NSt} (h : Pause s) : ∃ s', nodeRun demoDB s endlessRound = some s' ∧ Pause s' ∧
    nSent s' = nSent s + 1 := by
  obtain ⟨h1, h2, h3, h4, h5, h6, h7, p, h8, h9⟩ := h
  obtain ⟨m, hm⟩ := Option.isSome_iff_exists.1 h7
  obtain ⟨cs, hcs⟩ := Option.isSome_iff_exists.1 h9
  refine ⟨_, by
    simp only [endlessRound, go, nodeRun, nodeStep, identStep, NSt.goto, NSt.write, NSt.await, NSt.push, h1, h2, h3, h4,
      h5, h6, hm, h8, hcs, updN, if_true, Option.isSome_none, Bool.false_eq_true, if_false, Option.bind_some]
    rfl, ?_, ?_⟩
  · exact ⟨rfl, rfl, by simp [updN], rfl, rfl, rfl, rfl, p, rfl, h9⟩
  · simp only [nSent, List.countP_cons, isSent]; rfl

/-- C57 is false: there are identifications that send any number of requests. -/
theorem C57_violated_unbounded_requests (k : Nat) : ∃ ls s, nodeRun demoDB (NSt.start (readyNode 3)) ls = some s ∧
    (∀ l ∈ ls, Silent demoDB l) ∧ s.nIdent = 1 ∧
    k ≤ s.hist.countP fun e => match e with | .sent .. => true | _ => false := by
  have e : (fun e => match e with | .sent .. => true | _ => false) = isSent := by
    funext l; cases l <;> rfl
  rw [e]
  have start : ∃ s, nodeRun demoDB (NSt.start (readyNode 3)) endlessStart = some s ∧ Pause s ∧ s.nIdent = 1 := by
    have hb : ((nodeRun demoDB (NSt.start (readyNode 3)) endlessStart).map fun s =>
        (s.crashed.isNone && decide (s.lock = none) && decide (s.ident 0 = .sleep) && s.node.hasConn && s.node.isAwake &&
          s.node.endpoints.isNone && s.node.manufacturer.isSome && decide (s.nIdent = 1) &&
          decide (s.node.protocolInfo = some (demoInfo true)))) = some true := by decide +kernel
    cases h : nodeRun demoDB (NSt.start (readyNode 3)) endlessStart with
    | none => rw [h] at hb; cases hb
    | some s =>
      rw [h] at hb
      simp only [Option.map_some, Option.some.injEq, Bool.and_eq_true, decide_eq_true_eq, Option.isNone_iff_eq_none] at hb
      obtain ⟨⟨⟨⟨⟨⟨⟨⟨b1, b2⟩, b3⟩, b4⟩, b5⟩, b6⟩, b7⟩, b8⟩, b9⟩ := hb
      exact ⟨s, rfl, ⟨b1, b2, b3, b4, b5, b6, b7, _, b9, by decide⟩, b8⟩
  have grow : ∀ k, ∃ ls s, nodeRun demoDB (NSt.start (readyNode 3)) ls = some s ∧
      (∀ l ∈ ls, Silent demoDB l) ∧ Pause s ∧ s.nIdent = 1 ∧ k ≤ nSent s := by
    intro k
    induction k with
    | zero =>
      obtain ⟨s, h1, h2, h3⟩ := start
      refine ⟨endlessStart, s, h1, ?_, h2, h3, Nat.zero_le _⟩
      intro l hl
      simp only [endlessStart, go, List.mem_cons, List.not_mem_nil, or_false] at hl
      rcases hl with rfl | rfl | rfl | rfl | rfl | rfl | rfl | rfl | rfl | rfl | rfl | rfl <;>
        simp [Silent] <;> decide
    | succ k ih =>
      obtain ⟨ls, s, h1, h2, h3, h4, h5⟩ := ih
      obtain ⟨s', g1, g2, g3⟩ := endless_round h3
      refine ⟨ls ++ endlessRound, s', by rw [nodeRun_append, h1]; exact g1, ?_, g2, ?_, by omega⟩
      · intro l hl
        rcases List.mem_append.1 hl with hl | hl
        · exact h2 l hl
        · simp only [endlessRound, go, List.mem_cons, List.not_mem_nil, or_false, or_self] at hl
          subst hl; trivial
      · have : ∀ ls s s', (∀ l ∈ ls, l = go) → nodeRun demoDB s ls = some s' → s'.nIdent = s.nIdent := by
          intro ls
          induction ls with
          | nil => intro s s' _ h; cases h; rfl
          | cons l ls ih =>
            intro s s' hl h
            simp only [nodeRun] at h
            cases hs : nodeStep demoDB s l with
            | none => rw [hs] at h; cases h
            | some s1 =>
              rw [hs] at h
              rw [ih s1 s' (fun l' h' => hl l' (List.mem_cons_of_mem _ h')) h,
                step_one (by rw [hl l List.mem_cons_self]; simp [go]) hs]
        rw [this _ _ _ (by simp [endlessRound]) g1, h4]
  obtain ⟨ls, s, h1, h2, h3, h4, h5⟩ := grow k
  exact ⟨ls, s, h1, h2, h4, h5⟩

/-! ## C58 -/

/-- The step hands a request for the node itself (not one the stick answers) to the connection. -/
def Sends (i : Nat) (s s' : NSt) : Prop := ∃ p data, s'.hist = .sent i (some p) data :: s.hist

theorem sends_at {db : DB} {s s' : NSt} {l : NLabel} {i : Nat} (h : nodeStep db s l = some s')
    (hs : Sends i s s') : awakeAt (s.ident i) = true := by
  obtain ⟨p, data, e⟩ := hs
  node_step h
  all_goals first
    | (exfalso; have := congrArg List.length e; simp at this; done)
    | (cases e; done)
    | (injection e with e1 e2
       injection e1 with e1 e3 e4
       subst e1
       first
         | (cases e3; done)
         | (rw [(by assumption : s.ident _ = _)]; rfl))

/-- C58: a node that is not listening, with one identification: each manufacturer, endpoint and state
request is sent only after a wake-up report that was received after the identification began to wait. -/
theorem C58_contacted_after_wakeup_partial (db : DB) (n : Node) (ls : List NLabel) (s s' : NSt) (l : NLabel) (i : Nat)
    (hn : n.isAwake = false) (hl : ∀ l ∈ ls, notListening l) (h : nodeRun db (NSt.start n) ls = some s)
    (h1 : s.nIdent ≤ 1) (hs : nodeStep db s l = some s') (hi : Sends i s s') : s.waitAt i < s.nWake :=
  (sleepInv hn hl h h1).awk i (sends_at hs hi)

/-- `nWake` counts wake-up reports and `waitAt` is its value when the wait began. -/
theorem C58_counters (db : DB) (s s' : NSt) (l : NLabel) (h : nodeStep db s l = some s') :
    (s'.nWake ≠ s.nWake → l = .report .wakeUp ∧ s'.nWake = s.nWake + 1) ∧
    ∀ i, (∃ es, s'.hist = es ++ s.hist ∧ .waits i ∈ es) → s'.waitAt i = s'.nWake := by
  constructor
  · node_step h
    all_goals simp
  · rintro i ⟨es, e, hm⟩
    node_step h
    all_goals first
      | (have : es = [] := by simpa using e
         subst this; cases hm; done)
      | (have e' := (List.append_cancel_right (as := [_]) (cs := es) (bs := s.hist) e)
         subst e'
         simp only [List.mem_singleton, reduceCtorEq, NEv.waits.injEq] at hm
         subst hm; simp [updN])
      | (have e' := (List.append_cancel_right (as := [_]) (cs := es) (bs := s.hist) e)
         subst e'
         simp only [List.mem_singleton, reduceCtorEq, NEv.waits.injEq] at hm)

/-- A sleeping switch: everything up to the first request after a wake-up. -/
def demoSleep : List NLabel :=
  [.identify, go, .ident 0 (.info (demoInfo false)), go, go, go, go, go, go, .report .wakeUp, .proc 0, go]

example : ((nodeRun demoDB (NSt.start (readyNode 3)) demoSleep).map fun s =>
    (s.crashed.isNone && decide (s.ident 0 = .send .manufacturer) && decide (s.nIdent = 1) &&
      decide (s.waitAt 0 = 0) && decide (s.nWake = 1) && !s.node.isAwake)) = some true := by decide +kernel

example : ∀ l ∈ demoSleep, notListening l := by
  intro l hl
  simp only [demoSleep, go, List.mem_cons, List.not_mem_nil, or_false] at hl
  rcases hl with rfl | rfl | rfl | rfl | rfl | rfl | rfl | rfl | rfl | rfl | rfl | rfl <;> first | trivial | rfl

/-- C58 is false for two identifications of one node: the second begins to wait while a wake-up report that was
received before is being processed, and is let through. -/
theorem C58_violated_second_identification : ∃ ls s s', (∀ l ∈ ls, notListening l) ∧
    nodeRun demoDB (NSt.start (readyNode 3)) ls = some s ∧ nodeStep demoDB s (.ident 1 .nothing) = some s' ∧
    Sends 1 s s' ∧ ¬ s.waitAt 1 < s.nWake := by
  let ls : List NLabel :=
    [.identify, go, .ident 0 (.info (demoInfo false)), go, go, go, go, go, go, .identify, .ident 1 .nothing,
     .ident 1 .nothing, .report .wakeUp, .ident 1 .nothing, .proc 0, .ident 1 .nothing, .ident 1 .nothing, .ident 1 .nothing,
     .ident 1 .nothing]
  have hb : ((nodeRun demoDB (NSt.start (readyNode 3)) ls).map fun s =>
      (decide (s.ident 1 = .send .manufacturer) && s.crashed.isNone && s.node.hasConn && decide (s.waitAt 1 = s.nWake))) =
      some true := by decide +kernel
  cases h : nodeRun demoDB (NSt.start (readyNode 3)) ls with
  | none => rw [h] at hb; cases hb
  | some s =>
    rw [h] at hb
    simp only [Option.map_some, Option.some.injEq, Bool.and_eq_true, decide_eq_true_eq, Option.isNone_iff_eq_none] at hb
    obtain ⟨⟨⟨b1, b2⟩, b3⟩, b4⟩ := hb
    refine ⟨ls, s, ?_⟩
    simp only [nodeStep, b2, identStep, b1, NSt.write, b3]
    refine ⟨_, ?_, h, rfl, ⟨.manufacturer, _, rfl⟩, by omega⟩
    intro l hl
    simp only [ls, go, List.mem_cons, List.not_mem_nil, or_false] at hl
    rcases hl with rfl | rfl | rfl | rfl | rfl | rfl | rfl | rfl | rfl | rfl | rfl | rfl | rfl | rfl | rfl | rfl | rfl | rfl | rfl <;>
      first | trivial | rfl

/-! ## C59 -/

/-- C59, what holds: after an endpoint report with count `k` the node has the endpoints 1 to k-1, each
linked to the node, with its classes and without states. Missing: endpoint `k`. -/
theorem C59_endpoints_created_partial (db : DB) (s s' : NSt) (i : Nat) (m : MultiChannelEndpoints)
    (hp : s.ident i = .reply .endpoints)
    (h : nodeStep db s (.ident i (.report (.multiChannelEndpoints m))) = some s') :
    ∃ es, s'.node.endpoints = some es ∧ es.length = m.endpoints - 1 ∧
      (∀ j, 1 ≤ j → j < m.endpoints → (es[j - 1]?.map (·.id)) = some (j : Int)) ∧
      ∀ e ∈ es, e.linked = true ∧ e.classes = s.node.classes ∧ e.stateBool = some [] ∧ e.stateFloat = some [] := by
  unfold nodeStep at h
  split at h
  · cases h
  simp only [identStep, hp] at h
  split at h
  · cases h
    refine ⟨_, rfl, by simp [Node.makeEndpoints], ?_, ?_⟩
    · intro j h1 h2
      have : j - 1 < m.endpoints - 1 := by omega
      simp only [Node.makeEndpoints, List.getElem?_map, List.getElem?_range this, Option.map_some]
      congr 1
      omega
    · intro e he
      simp only [Node.makeEndpoints, List.mem_map] at he
      obtain ⟨j, -, rfl⟩ := he
      exact ⟨rfl, rfl, rfl, rfl⟩
  · cases h

/-- C59 is false for every count: the last endpoint is missing. -/
theorem C59_violated_last_endpoint_missing (db : DB) (s s' : NSt) (i : Nat) (m : MultiChannelEndpoints)
    (hp : s.ident i = .reply .endpoints) (hk : 1 ≤ m.endpoints)
    (h : nodeStep db s (.ident i (.report (.multiChannelEndpoints m))) = some s') :
    ∃ es, s'.node.endpoints = some es ∧ es.length ≠ m.endpoints ∧ ∀ e ∈ es, e.id ≠ m.endpoints := by
  obtain ⟨es, e1, e2, e3, -⟩ := C59_endpoints_created_partial db s s' i m hp h
  refine ⟨es, e1, by omega, ?_⟩
  intro e he
  obtain ⟨j, hj, hjt⟩ := List.getElem_of_mem he
  have := e3 (j + 1) (by omega) (by omega)
  rw [Nat.add_sub_cancel, List.getElem?_eq_getElem hj, hjt] at this
  simp only [Option.map_some, Option.some.injEq] at this
  omega

example : ((nodeRun demoDB (NSt.start (readyNode 3)) ((demoIdent 3).take 12)).map fun s =>
    (decide (s.ident 0 = .endpointsEvent) && decide ((s.node.endpoints.getD []).map (·.id) = [1, 2]))) =
    some true := by decide +kernel

/-! ## C70 -/

/-- C70: no sequence of reports, wake-ups and identification steps, in any interleaving and with any answers,
makes a node panic that has its maps and its connection. -/
theorem C70_node_never_panics (db : DB) (n : Node) (s : NSt) (hn : FreshOk n) (hu : Usable n)
    (h : NReach db n s) : s.crashed = none := (usable hn hu h).2

/-- C70: a node that came from a file without its maps panics at the first report with a state. -/
theorem C70_violated_without_maps (db : DB) (n : Node) (hb : n.stateBool = none) (c v : Bool) :
    ∃ s, nodeRun db (NSt.start n) [.report (.switchBinaryV1 c v)] = some s ∧ s.crashed = some .nilMap := by
  simp [nodeRun, nodeStep, NSt.start, reportStep, Node.applyState, Node.setBool, mapPut, hb, Except.bind]

/-- C70: identifying a node before `Setup` panics. -/
theorem C70_violated_before_setup (db : DB) (id : Int) :
    ∃ s, nodeRun db (NSt.start (newNode id)) [.identify, go] = some s ∧ s.crashed = some .nilDeref := by
  simp [nodeRun, nodeStep, NSt.start, identStep, newNode, updN, go, NSt.write]

/-! ## C71 -/

/-- C71 is false: when the wake-up report is processed between the creation of the channel and its return, the
identification waits on nil for ever, whatever happens later. -/
theorem C71_violated_lost_wakeup : ∃ ls s, nodeRun demoDB (NSt.start (readyNode 3)) ls = some s ∧ s.nWake = 1 ∧
    s.crashed = none ∧ ∀ ls' s', nodeRun demoDB s ls' = some s' → s'.ident 0 = s.ident 0 ∧ s.ident 0 ≠ .done := by
  let ls : List NLabel :=
    [.identify, go, .ident 0 (.info (demoInfo false)), go, go, go, go, go, .report .wakeUp, .proc 0, .proc 0, go]
  have hb : ((nodeRun demoDB (NSt.start (readyNode 3)) ls).map fun s =>
      (decide (s.ident 0 = .awWait .manufacturer none) && s.crashed.isNone && decide (s.nWake = 1) && decide (s.nIdent = 1))) =
      some true := by decide +kernel
  cases h : nodeRun demoDB (NSt.start (readyNode 3)) ls with
  | none => rw [h] at hb; cases hb
  | some s =>
    rw [h] at hb
    simp only [Option.map_some, Option.some.injEq, Bool.and_eq_true, decide_eq_true_eq, Option.isNone_iff_eq_none] at hb
    obtain ⟨⟨⟨b1, b2⟩, b3⟩, b4⟩ := hb
    refine ⟨ls, s, h, b3, b2, ?_⟩
    intro ls' s' h'
    have key : s'.ident 0 = .awWait .manufacturer none ∧ 1 ≤ s'.nIdent := by
      refine run_induct (db := demoDB) (P := fun s => s.ident 0 = .awWait .manufacturer none ∧ 1 ≤ s.nIdent) ?_ ls' s s'
        ⟨b1, by omega⟩ h'
      rintro s l s' ⟨p1, p2⟩ hs
      node_step hs
      all_goals first
        | exact ⟨p1, p2⟩
        | grind [updN]
    exact ⟨by rw [key.1, b1], by rw [b1]; simp⟩

/-- C71, what holds: a wake-up that finds the identification waiting on its channel releases it. -/
theorem C71_wakeup_releases_partial (db : DB) (n : Node) (s : NSt) (i c : Nat) (p : Purpose) (hn : FreshOk n)
    (hu : Usable n) (h : NReach db n s) (hl : s.lock = none) (hw : s.ident i = .awWait p (some c))
    (hc : s.awake = some c) (a : Answer) :
    ∃ s', nodeRun db s [.report .wakeUp, .proc s.nProc, .proc s.nProc, .ident i a] = some s' ∧
      s'.ident i = .send p ∧ s'.lock = none := by
  have uc := (usable hn hu h).2
  have hf := (wakeInv h).free hl c hc
  refine ⟨_, by
    simp only [nodeRun, nodeStep, identStep, reportStep, procStep, NSt.goto, uc, hl, hw, hc, hf, updN, if_true,
      Option.isSome_none, Bool.false_eq_true, if_false, Option.bind_some]
    rfl, ?_, rfl⟩
  simp [updN]

example : ((nodeRun demoDB (NSt.start (readyNode 3)) (demoSleep.take 9)).map fun s =>
    (decide (s.ident 0 = .awWait .manufacturer (some 0)) && decide (s.awake = some 0) && decide (s.lock = none))) =
    some true := by decide +kernel

end Verif.Props
