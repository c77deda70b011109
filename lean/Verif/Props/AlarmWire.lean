import Verif.Props.System
import Verif.Props.AlarmFair
import Verif.Props.Reports

/-
C113: an alarm from the wire: in the whole process, from the bytes of the alarm frames to what the node shows in the end.
-/

set_option linter.unusedSimpArgs false
set_option linter.unusedVariables false

namespace Verif.Props

open Verif.Go Verif.Model Verif.Model.Conn Verif.Spec Verif.Lemmas Verif.Lemmas.Conn Verif.Lemmas.Ctl Verif.Lemmas.EndToEnd
  Verif.Lemmas.System

variable {lv : LoopVars} {db : DB} {f : Bool} {ns : List Node} {e : Exec (sysStep lv db)}

/-- Frame `fr` says that node `b` has an active alarm of type `t`: an alarm report in its long form, with status 0xFF and
a type other than 0. -/
def WireAlarm (fr : List UInt8) (b t : UInt8) : Prop :=
  t ≠ 0 ∧ ∃ level src sensorType event rest,
    CarriesCmd fr b 0x71 0x05 (t :: level :: src :: 0xFF :: sensorType :: event :: rest)

theorem wireAlarm_iff (fr : List UInt8) (b : UInt8) (q : Rat) :
    (∃ t : UInt8, q = t.toNat ∧ WireAlarm fr b t) ↔ ∃ r, IsReport fr b r ∧ saysLastType r = some q := by
  constructor
  · rintro ⟨t, rfl, ht, l, s, y, ev, rest, hc⟩
    exact ⟨_, ⟨_, _, _, hc, rfl⟩, by simp [saysLastType, ht]⟩
  · rintro ⟨r, ⟨cls, cmd, p, hc, hr⟩, hs⟩
    have hk := (C15_dispatch cls cmd p (kindOf r)).1 ⟨r, hr, rfl⟩
    cases r <;> simp only [saysLastType, reduceCtorEq] at hs
    case alarm a =>
      obtain ⟨h1, h2⟩ := hk
      simp [kindOf, classTable] at h1
      obtain ⟨rfl, rfl⟩ := h1
      have h' : (newAlarm p).map Report.alarm = .ok (.alarm a) := hr
      match p, h' with
      | t :: l :: src :: st :: y :: ev :: rest, h' =>
        cases h'
        simp only at hs
        split at hs
        · next hx =>
          obtain ⟨rfl, h3⟩ := hx
          cases hs
          exact ⟨t, rfl, h3, l, src, y, ev, rest, hc⟩
        · cases hs
      | [t, l], h' => cases h'; simp at hs
      | [t, l, _], h' => cases h'; simp at hs
      | [t, l, _, _], h' => cases h'; simp at hs
      | [t, l, _, _, _], h' => cases h'; simp at hs
      | [_], h' => cases h'
      | [], h' => cases h'

/-- What a step does to the reports applied to a node: nothing, or one more, of a delivery that had not been applied. -/
theorem applied_new {s s' : CSt} {l : CLabel} {ref : Nat} (h : cStep db s l = some s') :
    appliedTo ref s'.hist = appliedTo ref s.hist ∨ ∃ k r, CEv.applied k ref r ∈ s'.hist ∧
      timesApplied k s'.hist = timesApplied k s.hist + 1 ∧ arrivalOf k s'.hist = arrivalOf k s.hist := by
  ctl_step h
  all_goals try (exact .inl rfl)
  all_goals try (left; simp [put_hist, CSt.push, appliedTo]; done)
  all_goals try (left; simp only [put_hist]; split <;> simp [appliedTo]; done)
  rename_i k _ ref' r heq n' hn'
  by_cases hr : ref' = ref
  · subst hr
    refine .inr ⟨k, r, ?_, ?_, ?_⟩
    · simp only [put_hist]; split <;> simp
    · simp only [put_hist]; split <;> simp [timesApplied]
    · simp only [put_hist]; split <;> simp [arrivalOf]
  · left
    simp only [put_hist]; split <;> simp [appliedTo, hr]

/-- From some moment on nothing more is applied to the node. -/
theorem applied_settles (hf : FairSys e) (hg : GoodFile ns) (h0 : e.st 0 = sysStart f ns) {n0 n : Nat}
    (hd : (e.st n0).ctl.disc = .done) {b : UInt8} {ref : Nat} (hl : (e.st n0).ctl.list.get b.toNat = some ref)
    (hb : AllApplied b (e.st n0).ctl) (hq : NoMoreRequests e n) (hr : NoMoreReads e n) {xs : List Session}
    (hx : sessions (connSteps e n) = xs.map Session.reads) (ho : ∀ x ∈ xs, x.Ok) (ha : ∀ m, ¬ Sys.dead (e.st m)) :
    ∃ m, ref < (e.st m).ctl.nHeap ∧
      ∀ m', m ≤ m' → appliedTo ref (e.st m').ctl.hist = appliedTo ref (e.st m).ctl.hist := by
  obtain ⟨m, h⟩ := C100_all_applied hf hg h0 hd hl hb hq hr hx ho
  have h' := fun m' hm => (h m' hm).resolve_left (ha m')
  refine ⟨m, ((cinv hg (sys_parts h0 m).2).list _ _ (h' m (Nat.le_refl m)).2.2).1, fun m' hm => ?_⟩
  induction hm with
  | refl => rfl
  | step hm ih =>
    next i =>
    have hm' : m ≤ i := hm
    rw [← ih]
    have hnx := (ctlExec e).next i
    split at hnx
    · next l hlab =>
      refine (applied_new (ref := ref) hnx).resolve_right ?_
      rintro ⟨k, r, q1, q2, q3⟩
      obtain ⟨g1, id, g2, g3⟩ := (apInv hg (sys_parts h0 (i + 1)).2).ap k ref r q1
      have g4 := ((cinv hg (sys_parts h0 (i + 1)).2).list _ _ (h' (i + 1) (by omega)).2.2).2
      have : id = b := by
        rw [g3] at g4
        exact UInt8.toNat_inj.1 (by exact_mod_cast g4)
      subst this
      have a1 := (h' (i + 1) (by omega)).2.1 k r g2
      have a2 := (h' i hm).2.1 k r (by
        have q3' : arrivalOf k (e.st (i + 1)).ctl.hist = arrivalOf k (e.st i).ctl.hist := q3
        rw [← q3']; exact g2)
      have q2' : timesApplied k (e.st (i + 1)).ctl.hist = timesApplied k (e.st i).ctl.hist + 1 := q2
      omega
    · have : (e.st (i + 1)).ctl = (e.st i).ctl := hnx
      rw [this]

/-- C113: when the wire has fallen silent, no listed node shows an alarm in the end, whatever alarms it reported. -/
theorem C113_alarm_over_partial (hf : FairSys e) (hg : GoodFile ns) (h0 : e.st 0 = sysStart f ns)
    (hfile : ∀ x ∈ ns, boolState x "alarm".toList ≠ some true) {n0 n : Nat}
    (hd : (e.st n0).ctl.disc = .done) {b : UInt8} {ref : Nat} (hl : (e.st n0).ctl.list.get b.toNat = some ref)
    (hb : AllApplied b (e.st n0).ctl) (hq : NoMoreRequests e n) (hr : NoMoreReads e n) {xs : List Session}
    (hx : sessions (connSteps e n) = xs.map Session.reads) (ho : ∀ x ∈ xs, x.Ok) :
    ∃ m, ∀ m', m ≤ m' → Sys.dead (e.st m') ∨
      boolState ((e.st m').ctl.heap ref).node "alarm".toList ≠ some true := by
  by_cases hdead : ∃ m, Sys.dead (e.st m)
  · obtain ⟨m, hm⟩ := hdead
    exact ⟨m, fun m' h => .inl (dead_stays h hm)⟩
  have ha : ∀ m, ¬ Sys.dead (e.st m) := fun m h => hdead ⟨m, h⟩
  obtain ⟨m, h1, h2⟩ := applied_settles hf hg h0 hd hl hb hq hr hx ho ha
  obtain ⟨m2, -, h3⟩ := C104_alarm_over_partial (e := ctlExec e) (ctl_fair ha hf) hg (sys_parts h0 0).2 hfile m ref h1
    (fun m' hm => by
      show alarmsRaised ref (e.st m').ctl.hist = alarmsRaised ref (e.st m).ctl.hist
      unfold alarmsRaised; rw [h2 m' hm])
  exact ⟨m2, fun m' hm => .inr (h3.resolve_left (fun h => ha m2 (.inr h)) m' hm)⟩

/-- C45 for the type of the last alarm, which it leaves out. -/
theorem last_type_from_own_reports (hg : GoodFile ns) {s : CSt} (hr : CReach db f ns s) (ref : Nat) (hlt : ref < s.nHeap) :
    ∃ n, beginsAs ns ref n ∧ floatState (s.heap ref).node "alarmLastType".toList =
      lastSaid saysLastType (floatState n "alarmLastType".toList) (appliedTo ref s.hist) := by
  obtain ⟨n, hn, ls, e1, e2⟩ := (bornInv hg hr).born ref hlt
  have hok := ((cinv hg hr).safe ref hlt).ok
  have e3 : reportsOf ls = appliedTo ref s.hist := by
    rw [← e2]; unfold reportsOf
    congr 1
  refine ⟨n, ?_, by rw [C53_last_type_remembered db n ls _ e1 hok, e3]⟩
  rcases hn with ⟨h1, id, rfl⟩ | ⟨m, hm, rfl⟩
  · exact .inr ⟨h1, rfl, rfl⟩
  · exact .inl ⟨m, hm, rfl, rfl, rfl⟩

/-- C113: the alarm is over, but not forgotten: if there was an alarm frame of node `b` on the wire and all of them name
one type, the node shows that type as the last one, in the end and from then on. -/
theorem C113_last_type_shown (hf : FairSys e) (hg : GoodFile ns) (h0 : e.st 0 = sysStart f ns) {n0 n : Nat}
    (hd : (e.st n0).ctl.disc = .done) {b : UInt8} {ref : Nat} (hl : (e.st n0).ctl.list.get b.toNat = some ref)
    (hb : AllApplied b (e.st n0).ctl) (hq : NoMoreRequests e n) (hr : NoMoreReads e n) {xs : List Session}
    (hx : sessions (connSteps e n) = xs.map Session.reads) (ho : ∀ x ∈ xs, x.Ok) {t : UInt8}
    (hsome : ∃ fr ∈ onWire xs, WireAlarm fr b t) (hagree : ∀ fr ∈ onWire xs, ∀ t', WireAlarm fr b t' → t' = t) :
    ∃ m, ∀ m', m ≤ m' → Sys.dead (e.st m') ∨
      floatState ((e.st m').ctl.heap ref).node "alarmLastType".toList = some (t.toNat : Rat) := by
  obtain ⟨m, h⟩ := C100_all_applied hf hg h0 hd hl hb hq hr hx ho
  refine ⟨m, fun m' hm => (h m' hm).imp_right fun ⟨ht, h2, h3⟩ => ?_⟩
  obtain ⟨nd, -, h1⟩ := last_type_from_own_reports hg ht.ctl ref ((cinv hg ht.ctl).list _ _ h3).1
  rw [h1]
  obtain ⟨fr, hfr, hw⟩ := hsome
  obtain ⟨r, hr1, hr2⟩ := (wireAlarm_iff fr b t.toNat).1 ⟨t, rfl, hw⟩
  refine lastSaid_agree _ _ ((applied_iff ht h3 r).2 h2 ⟨fr, hfr, hr1⟩) hr2 fun r' hr' => ?_
  obtain ⟨fr', hf', hi'⟩ := (applied_iff ht h3 r').1 hr'
  cases hs : saysLastType r' with
  | none => exact .inr rfl
  | some y =>
    obtain ⟨t', rfl, hw'⟩ := (wireAlarm_iff fr' b y).2 ⟨r', hi', hs⟩
    exact .inl (by rw [hagree fr' hf' t' hw'])

/-! ### An instance -/

/-- Node 2 has an active alarm of type 7. -/
def exAlarm : List UInt8 :=
  [0x01, 0x0E, 0x00, 0x04, 0x00, 0x02, 0x08, 0x71, 0x05, 0x07, 0x00, 0x00, 0xFF, 0x00, 0x00, 0x73]

theorem exAlarm_good : GoodFrame exAlarm :=
  ⟨[0x00, 0x04, 0x00, 0x02, 0x08, 0x71, 0x05, 0x07, 0x00, 0x00, 0xFF, 0x00, 0x00], ⟨0x0E, 0x73, rfl, rfl, by decide⟩,
    .inl ⟨0x00, 0x00, 0x02, 0x08, [0x71, 0x05, 0x07, 0x00, 0x00, 0xFF, 0x00, 0x00], rfl, by decide, by decide, by decide⟩⟩

/-- The port is opened, node 2 is discovered; then its alarm is read, raised and taken back. -/
def exAlarmSys : List SLabel :=
  [.conn (.connect true), .connected true] ++ discOne.map .ctl ++ [.conn (.reader (.read ⟨exAlarm, true, 5⟩))] ++
    exWork.map .conn ++ [.ctl (.deliver 0), .ctl (.deliver 0), .ctl (.deliver 0), .ctl (.node 0 (.proc 0))]

/-- The reads of it. -/
def exAlarmSession : Session := [(⟨[.frame exAlarm], none⟩, ⟨exAlarm, true, 5⟩, [])]

theorem exAlarmSession_ok : ∀ x ∈ [exAlarmSession, []], x.Ok := by
  intro x hx
  simp at hx
  rcases hx with rfl | rfl
  case inr => intro b hb; cases hb
  intro b hb
  simp [exAlarmSession] at hb
  subst hb
  refine ⟨⟨?_, by simp⟩, by simp, by decide⟩
  intro t ht; simp at ht; subst ht; exact exAlarm_good

/-- A fair execution that meets the hypotheses: the discovery is over at moment 13, at moment 14 the frame has been read
but not even cut out of the buffer, and nothing more is read or requested; at moment 26 the node shows the alarm. -/
example : ∃ e : Exec (sysStep .perIteration demoDB), FairSys e ∧ e.st 0 = sysStart false [] ∧
    (e.st 13).ctl.disc = .done ∧ (e.st 13).ctl.list.get (2 : UInt8).toNat = some 0 ∧ AllApplied 2 (e.st 13).ctl ∧
    NoMoreRequests e 14 ∧ NoMoreReads e 14 ∧ (e.st 14).conn.reader = .loop ∧ callbacks (e.st 14).conn = [] ∧
    boolState ((e.st 14).ctl.heap 0).node "alarm".toList = none ∧
    sessions (connSteps e 14) = [exAlarmSession, []].map Session.reads ∧ (∀ x ∈ [exAlarmSession, []], x.Ok) ∧
    (∃ fr ∈ onWire [exAlarmSession, []], WireAlarm fr 2 7) ∧
    boolState ((e.st 26).ctl.heap 0).node "alarm".toList = some true ∧ (∀ n, ¬ Sys.dead (e.st n)) := by
  have hv : (runSteps (sysStep .perIteration demoDB) (sysStart false []) exAlarmSys).map (fun s =>
      restB s.conn && cRestB s.ctl && s.conn.crashed.isNone && s.ctl.crashed.isNone) = some true := by decide +kernel
  cases hr : runSteps (sysStep .perIteration demoDB) (sysStart false []) exAlarmSys with
  | none => rw [hr] at hv; cases hv
  | some s =>
    have hr0 : runSteps (sysStep .perIteration demoDB) (sysStart false []) exAlarmSys = some (sysTail s 0) := hr
    rw [hr] at hv
    simp only [Option.map_some, Option.some.injEq, Bool.and_eq_true, Option.isNone_iff_eq_none] at hv
    obtain ⟨⟨⟨v1, v2⟩, v3⟩, v4⟩ := hv
    let e0 := execFin (sysStep .perIteration demoDB) (sysStart false []) exAlarmSys s hr none (by simp)
    have hst : e0.st exAlarmSys.length = s := execFin_end _ _ (Nat.le_refl _)
    have hp := sys_parts (e := e0) (f := false) (ns := []) (by simp [e0, execFin, runSteps]) exAlarmSys.length
    rw [hst] at hp
    let e := execTail (sysStep .perIteration demoDB) (sysStart false []) exAlarmSys (sysTail s) (.ctl (.tick 1)) hr0 (sysTail_step v3 v4)
    have v : ∀ n (p : Sys → Bool), n < exAlarmSys.length →
        (runSteps (sysStep .perIteration demoDB) (sysStart false []) (exAlarmSys.take n)).map p = some true → p (e.st n) = true := by
      intro n p hn hp
      cases hr : runSteps (sysStep .perIteration demoDB) (sysStart false []) (exAlarmSys.take n) with
      | none => rw [hr] at hp; cases hp
      | some t => rw [hr] at hp; rw [show e.st n = t from execTail_mid hr0 _ hn hr]; simpa using hp
    have hlab : ∀ m, 14 ≤ m → ∃ l, e.lab m = some l ∧ inert l = true := by
      intro m hm
      refine ⟨_, rfl, ?_⟩
      by_cases hlt : m < exAlarmSys.length
      · have hall : ((exAlarmSys.drop 14).all inert) = true := by decide +kernel
        rw [List.all_eq_true] at hall
        rw [if_pos hlt, List.getElem?_eq_getElem hlt, Option.getD_some]
        refine hall _ (List.mem_of_getElem? (i := m - 14) ?_)
        rw [List.getElem?_drop, show 14 + (m - 14) = m by omega, List.getElem?_eq_getElem hlt]
      · rw [if_neg hlt]; rfl
    have hdeadB : ∀ n, ¬ Sys.dead (e.st n) := by
      intro n hd
      have h1 := dead_stays (e := e) (n := n) (m := n + exAlarmSys.length) (by omega) hd
      rw [show e.st (n + exAlarmSys.length) = _ from execTail_end hr0 _ (by omega)] at h1
      rcases h1 with h1 | h1
      · exact h1 v3
      · exact h1 v4
    refine ⟨e, sys_fair hr0 v3 v4 (quiet_of_restB ⟨_, hp.1⟩ v1) (cquiet_of_rest (cinv noFileGood hp.2) v2), ?_, ?_, ?_, ?_, ?_,
      ?_, ?_, ?_, ?_, ?_, exAlarmSession_ok, ⟨exAlarm, by decide, ?_⟩, ?_, hdeadB⟩
    · exact execTail_mid hr0 _ (by decide) rfl
    · simpa using v 13 (fun s => decide (s.ctl.disc = .done)) (by decide) (by decide +kernel)
    · simpa using v 13 (fun s => decide (s.ctl.list.get (2 : UInt8).toNat = some 0)) (by decide) (by decide +kernel)
    · intro k r hk
      have h1 : arrivals (e.st 13).ctl.hist = [] := by
        simpa using v 13 (fun s => decide (arrivals s.ctl.hist = [])) (by decide) (by decide +kernel)
      have := mem_arrivals.2 ⟨k, arrivalOf_mem hk⟩
      rw [h1] at this; cases this
    · intro m hm w src hc
      obtain ⟨l, h1, h2⟩ := hlab m hm
      rw [h1] at hc; cases hc; cases h2
    · intro m hm
      obtain ⟨l, h1, h2⟩ := hlab m hm
      constructor
      · intro r hc; rw [h1] at hc; cases hc; cases h2
      · intro hc; rw [h1] at hc; cases hc; cases h2
    · simpa using v 14 (fun s => decide (s.conn.reader = .loop)) (by decide) (by decide +kernel)
    · simpa using v 14 (fun s => decide (callbacks s.conn = [])) (by decide) (by decide +kernel)
    · simpa using v 14 (fun s => decide (boolState (s.ctl.heap 0).node "alarm".toList = none)) (by decide) (by decide +kernel)
    · rfl
    · exact ⟨by decide, 0, 0, 0, 0, [], 0x00, 0x00, 0x08, [], ⟨0x0E, 0x73, rfl, rfl, by decide⟩, rfl, by decide⟩
    · simpa using v 26 (fun s => decide (boolState (s.ctl.heap 0).node "alarm".toList = some true)) (by decide) (by decide +kernel)

/-- The port is opened and the discovery finds node 2, which is known from the file. -/
def exAlarmed : List SLabel :=
  [.conn (.connect true), .connected true] ++
    ([CLabel.startDisc, .disc (.nodes [true, true])] ++ List.replicate 3 d).map .ctl

/-- C113 is false for a node that is loaded from a file that was written during an alarm (such files are written:
`C104_violated_restart`): not a byte is on the wire, and yet the node shows the alarm for ever. -/
theorem C113_violated_restart : ∃ e : Exec (sysStep .perIteration demoDB), FairSys e ∧ GoodFile [alarmedNode] ∧
    e.st 0 = sysStart true [alarmedNode] ∧ (e.st 7).ctl.disc = .done ∧
    (e.st 7).ctl.list.get (2 : UInt8).toNat = some 0 ∧ AllApplied 2 (e.st 7).ctl ∧ NoMoreRequests e 7 ∧ NoMoreReads e 7 ∧
    sessions (connSteps e 7) = [[], []].map Session.reads ∧
    ∀ m, 7 ≤ m → ¬ Sys.dead (e.st m) ∧ boolState ((e.st m).ctl.heap 0).node "alarm".toList = some true := by
  have hg : GoodFile [alarmedNode] :=
    ⟨by intro n hn; simp at hn; subst hn; exact ⟨rfl, rfl, rfl, rfl, rfl⟩, by simp⟩
  have hv : (runSteps (sysStep .perIteration demoDB) (sysStart true [alarmedNode]) exAlarmed).map (fun s =>
      restB s.conn && cRestB s.ctl && s.conn.crashed.isNone && s.ctl.crashed.isNone && decide (s.ctl.disc = .done) &&
      decide (s.ctl.list.get (2 : UInt8).toNat = some 0) && decide (arrivals s.ctl.hist = []) &&
      decide (boolState (s.ctl.heap 0).node "alarm".toList = some true)) = some true := by decide +kernel
  cases hr : runSteps (sysStep .perIteration demoDB) (sysStart true [alarmedNode]) exAlarmed with
  | none => rw [hr] at hv; cases hv
  | some s =>
    have hr0 : runSteps (sysStep .perIteration demoDB) (sysStart true [alarmedNode]) exAlarmed = some (sysTail s 0) := hr
    rw [hr] at hv
    simp only [Option.map_some, Option.some.injEq, Bool.and_eq_true, Option.isNone_iff_eq_none, decide_eq_true_eq] at hv
    obtain ⟨⟨⟨⟨⟨⟨⟨v1, v2⟩, v3⟩, v4⟩, v5⟩, v6⟩, v7⟩, v8⟩ := hv
    let e0 := execFin (sysStep .perIteration demoDB) (sysStart true [alarmedNode]) exAlarmed s hr none (by simp)
    have hst : e0.st exAlarmed.length = s := execFin_end _ _ (Nat.le_refl _)
    have hp := sys_parts (e := e0) (f := true) (ns := [alarmedNode]) (by simp [e0, execFin, runSteps]) exAlarmed.length
    rw [hst] at hp
    let e := execTail (sysStep .perIteration demoDB) (sysStart true [alarmedNode]) exAlarmed (sysTail s) (.ctl (.tick 1)) hr0
      (sysTail_step v3 v4)
    have hend : ∀ m, 7 ≤ m → e.st m = sysTail s (m - 7) := fun m hm => execTail_end hr0 _ hm
    have hlab : ∀ m, 7 ≤ m → e.lab m = some (.ctl (.tick 1)) := by
      intro m hm
      show some _ = _
      rw [if_neg (by show ¬ m < 7; omega)]
    refine ⟨e, sys_fair hr0 v3 v4 (quiet_of_restB ⟨_, hp.1⟩ v1) (cquiet_of_rest (cinv hg hp.2) v2), hg, ?_, ?_, ?_, ?_,
      ?_, ?_, ?_, ?_⟩
    · exact execTail_mid hr0 _ (by decide) rfl
    · rw [hend 7 (by omega)]; exact v5
    · rw [hend 7 (by omega)]; exact v6
    · intro k r hk
      rw [hend 7 (by omega)] at hk
      have hk' : arrivalOf k s.ctl.hist = some (2, r) := hk
      have := mem_arrivals.2 ⟨k, arrivalOf_mem hk'⟩
      rw [v7] at this; cases this
    · intro m hm w src hc
      rw [hlab m hm] at hc; cases hc
    · intro m hm
      rw [hlab m hm]
      exact ⟨(fun r hc => by cases hc), (fun hc => by cases hc)⟩
    · rfl
    · intro m hm
      rw [hend m hm]
      exact ⟨fun h => h.elim (fun h => h v3) (fun h => h v4), v8⟩

end Verif.Props
