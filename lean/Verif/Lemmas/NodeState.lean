import Verif.Lemmas.NodeM
import Verif.Spec.Node

/-
Lemmas about the states of a node under reports, alarms and identification.
-/

set_option linter.unusedSimpArgs false
set_option linter.unusedVariables false
set_option maxHeartbeats 4000000

namespace Verif.Lemmas.NodeM

open Verif.Go Verif.Model Verif.Spec

theorem sensorKey_spec (s : SensorMultiLevel) :
    sensorKey s = (s.typeString ++ "_".toList ++ s.unit).map Char.toLower := by
  simp [sensorKey, lower]

theorem applyState_says {n n' : Node} {r : Report} {b : Bool} (h : n.applyState r = .ok (n', b)) :
    (∀ k, getB n' k = (saysBool r k).or (getB n k)) ∧ (∀ k, getF n' k = (saysFloat r k).or (getF n k)) ∧
      b = isState r := by
  have hon : kOn = "on".toList := rfl
  have hlv : kLevel = "level".toList := rfl
  unfold Node.applyState at h
  split at h
  case h_6 => 
    cases h
    refine ⟨fun k => ?_, fun k => ?_, ?_⟩
    · unfold saysBool; split
      · split <;> first | (exfalso; grind; done) | rfl
      · rfl
    · unfold saysFloat; split <;> first | (exfalso; grind; done) | rfl
    · unfold isState; split <;> first | (exfalso; grind; done) | rfl
  all_goals
    obtain ⟨n1, h1, h⟩ := res_bind_ok h
  case h_1 c _ =>
    cases h
    obtain ⟨-, a2, a3⟩ := setBool_ok h1
    refine ⟨fun k => ?_, fun k => by rw [a3]; rfl, rfl⟩
    rw [a2, hon, saysBool]; split <;> rfl
  case h_2 c _ _ =>
    cases h
    obtain ⟨-, a2, a3⟩ := setBool_ok h1
    refine ⟨fun k => ?_, fun k => by rw [a3]; rfl, rfl⟩
    rw [a2, hon, saysBool]; split <;> rfl
  case h_3 c _ =>
    obtain ⟨n2, h2, h⟩ := res_bind_ok h
    cases h
    obtain ⟨-, a2, a3⟩ := setBool_ok h1
    obtain ⟨-, b2, b3⟩ := setFloat_ok h2
    refine ⟨fun k => ?_, fun k => ?_, rfl⟩
    · rw [b3, a2, hon, saysBool]; split
      · simp [Nat.pos_iff_ne_zero]
      · rfl
    · rw [b2, hlv, a3]; simp only [saysFloat]; split <;> rfl
  case h_4 c _ _ _ _ =>
    obtain ⟨n2, h2, h⟩ := res_bind_ok h
    cases h
    obtain ⟨-, a2, a3⟩ := setBool_ok h1
    obtain ⟨-, b2, b3⟩ := setFloat_ok h2
    refine ⟨fun k => ?_, fun k => ?_, rfl⟩
    · rw [b3, a2, hon, saysBool]; split
      · simp [Nat.pos_iff_ne_zero]
      · rfl
    · rw [b2, hlv, a3]; simp only [saysFloat]; split <;> rfl
  case h_5 s =>
    cases h
    obtain ⟨-, a2, a3⟩ := setFloat_ok h1
    refine ⟨fun k => ?_, fun k => ?_, rfl⟩
    · rw [a3]; simp only [saysBool]; split <;> rfl
    · rw [a2, sensorKey_spec]; simp only [saysFloat]; split <;> rfl

theorem applyState_false {n n' : Node} {r : Report} (h : n.applyState r = .ok (n', false)) : n' = n := by
  unfold Node.applyState at h
  split at h
  case h_6 => cases h; rfl
  all_goals
    obtain ⟨n1, h1, h⟩ := res_bind_ok h
  case h_1 => cases h
  case h_2 => cases h
  case h_3 => obtain ⟨n2, h2, h⟩ := res_bind_ok h; cases h
  case h_4 => obtain ⟨n2, h2, h⟩ := res_bind_ok h; cases h
  case h_5 => cases h

/-- The report a step applies. -/
def reportOf : NLabel → Option Report
  | .report r => some r
  | _ => none

theorem saysBool_alarm (a : Alarm) (k : List Char) : saysBool (.alarm a) k = none := by
  simp [saysBool]
theorem saysBool_wakeUp (k : List Char) : saysBool .wakeUp k = none := by
  simp [saysBool]

theorem step_says {db : DB} {s s' : NSt} {l : NLabel} (h : nodeStep db s l = some s')
    (hc : s'.crashed = none) :
    (∀ k, k ≠ kAlarm → getB s'.node k = ((reportOf l).bind fun r => saysBool r k).or (getB s.node k)) ∧
    (∀ k, k ≠ kAlarm → k ≠ kAlarmLast →
      getF s'.node k = ((reportOf l).bind fun r => saysFloat r k).or (getF s.node k)) := by
  have e1 := saysBool_alarm
  have e2 := saysBool_wakeUp
  node_step h
  all_goals first
    | (cases hc; done)
    | (have q := alarmOn_ok (by assumption)
       simp only [reportOf, Option.bind_some, e1, Option.none_or, saysFloat]
       exact ⟨fun k h => by rw [q.2.1, if_neg h], fun k h h' => by rw [q.2.2, if_neg (by simp [h, h'])]⟩)
    | (have q := alarmOff_ok (by assumption)
       simp only [reportOf, Option.bind_none, Option.none_or]
       exact ⟨fun k h => by rw [q.2.1, if_neg h], fun k h h' => by rw [q.2.2, if_neg h]⟩)
    | (have q0 := applyState_false (by assumption); subst q0
       have q := applyState_says (by assumption)
       exact ⟨fun k h => q.1 k, fun k h h' => q.2.1 k⟩)
    | (have q := applyState_says (by assumption)
       exact ⟨fun k h => q.1 k, fun k h h' => q.2.1 k⟩)
    | (refine ⟨fun k _ => ?_, fun k _ _ => ?_⟩ <;> first | rfl | simp [getB, getF, reportOf, setManufacturer_fields, saysBool, saysFloat])

/-- Pushed events. -/
def pushes (s : NSt) : Nat := s.hist.count .pushed

/-! ### The alarm -/

theorem underscore_mem (s : SensorMultiLevel) :
    '_' ∈ (s.typeString ++ "_".toList ++ s.unit).map Char.toLower := by
  simp only [List.map_append, List.mem_append, List.mem_map]
  exact Or.inl (Or.inr ⟨'_', by decide, by decide⟩)

theorem saysBool_kAlarm (r : Report) : saysBool r kAlarm = none := by
  unfold saysBool
  rw [if_neg (by decide)]

theorem saysFloat_plain {k : List Char} (h : '_' ∉ k) (h' : k ≠ "level".toList) (r : Report) :
    saysFloat r k = none := by
  unfold saysFloat
  split
  · rw [if_neg h']
  · rw [if_neg h']
  · rename_i s
    rw [if_neg]
    intro e
    exact h (e ▸ underscore_mem s)
  · rfl

theorem saysFloat_kAlarm (r : Report) : saysFloat r kAlarm = none :=
  saysFloat_plain (by decide) (by decide) r
theorem saysFloat_kAlarmLast (r : Report) : saysFloat r kAlarmLast = none :=
  saysFloat_plain (by decide) (by decide) r

theorem step_alarm {db : DB} {s s' : NSt} {l : NLabel} (hw : WakeInv s) (h : nodeStep db s l = some s')
    (hc : s'.crashed = none) :
    (∃ a, l = .report (.alarm a) ∧ a.status = 0xFF ∧ s.node.alarmOn a = .ok s'.node ∧
      s'.proc = updN s.proc s.nProc .pulse) ∨
    (∃ j, l = .proc j ∧ s.proc j = .pulse ∧ s.node.alarmOff = .ok s'.node ∧ s'.proc = updN s.proc j .done) ∨
    (getB s'.node kAlarm = getB s.node kAlarm ∧ getF s'.node kAlarm = getF s.node kAlarm ∧
      getF s'.node kAlarmLast = getF s.node kAlarmLast ∧
      (∀ j, s'.proc j = .pulse ↔ s.proc j = .pulse) ∧
      ∀ a, l = .report (.alarm a) → a.status ≠ 0xFF) := by
  have f1 := hw.freshP
  clear hw
  node_step h
  all_goals first
    | (cases hc; done)
    | (left; exact ⟨_, rfl, by assumption, by assumption, rfl⟩)
    | (right; left; exact ⟨_, rfl, by assumption, by assumption, rfl⟩)
    | (right; right
       have q0 := applyState_false (by assumption); subst q0
       refine ⟨rfl, rfl, rfl, fun j => Iff.rfl, ?_⟩
       intro a e; cases e; grind)
    | (right; right
       have q := applyState_says (by assumption)
       refine ⟨by rw [q.1, saysBool_kAlarm]; rfl, by rw [q.2.1, saysFloat_kAlarm]; rfl,
         by rw [q.2.1, saysFloat_kAlarmLast]; rfl, fun j => Iff.rfl, ?_⟩
       intro a e; cases e; grind)
    | (right; right
       refine ⟨?_, ?_, ?_, ?_, ?_⟩ <;> first | rfl | (intro j; grind [updN]) | simp [getB, getF, setManufacturer_fields])

/-- While the alarm shows, its pulse has not ended. -/
def AlarmInv (s : NSt) : Prop := getB s.node kAlarm = some true → ∃ j, s.proc j = .pulse

theorem alarm_step {db : DB} {s s' : NSt} {l : NLabel} (hw : WakeInv s) (hi : AlarmInv s)
    (h : nodeStep db s l = some s') (hc : s'.crashed = none) : AlarmInv s' := by
  intro ha
  rcases step_alarm hw h hc with ⟨a, -, -, -, e⟩ | ⟨j, -, -, e, -⟩ | ⟨e, -, -, e2, -⟩
  · exact ⟨s.nProc, by rw [e]; simp [updN]⟩
  · rw [(alarmOff_ok e).2.1] at ha; simp at ha
  · rw [e] at ha
    obtain ⟨j, hj⟩ := hi ha
    exact ⟨j, (e2 j).2 hj⟩

theorem crashed_mono {db : DB} {s s' : NSt} {l : NLabel} (h : nodeStep db s l = some s') : s.crashed = none := by
  unfold nodeStep at h
  split at h
  · cases h
  · rename_i q; simpa using q

/-- Induction over runs that end without a panic. -/
theorem run_induct' {db : DB} {P : NSt → Prop}
    (hstep : ∀ s l s', P s → nodeStep db s l = some s' → s'.crashed = none → P s') :
    ∀ ls s0 s, P s0 → nodeRun db s0 ls = some s → s.crashed = none → P s := by
  intro ls s0 s hp h hc
  refine (run_induct (db := db) (P := fun s => s.crashed = none → P s) ?_ ls s0 s (fun _ => hp) h) hc
  intro s l s' hp hs hc
  exact hstep s l s' (hp (crashed_mono hs)) hs hc

theorem alarmInv {db : DB} {n : Node} {s : NSt} (hn : getB n kAlarm ≠ some true) (h : NReach db n s)
    (hc : s.crashed = none) : AlarmInv s := by
  obtain ⟨ls, h⟩ := h
  exact (run_induct' (db := db) (P := fun s => WakeInv s ∧ AlarmInv s)
    (fun s l s' hp hs hc => ⟨wake_step hp.1 hs, alarm_step hp.1 hp.2 hs hc⟩) ls _ _
    ⟨wakeInv_start n, fun h => absurd h hn⟩ h hc).2

end Verif.Lemmas.NodeM
