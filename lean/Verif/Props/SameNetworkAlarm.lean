import Verif.Props.SameNetworkFile

/-
C123 for alarms: with an unchanged network no alarm comes back with a restart, and its type is remembered.
-/

set_option linter.unusedSimpArgs false
set_option linter.unusedVariables false
set_option maxHeartbeats 1000000

namespace Verif.Props

open Verif.Go Verif.Model Verif.Model.Conn Verif.Spec Verif.Spec.SaveEnd Verif.Lemmas Verif.Lemmas.NodeM Verif.Lemmas.Conn Verif.Lemmas.Ctl
  Verif.Lemmas.EndToEnd Verif.Lemmas.System

variable {lv : LoopVars} {db : DB} {ns : List Node} {e : Exec (sysStep lv db)}

/-- An alarm frame raises the alarm. -/
theorem wireAlarm_announces {fr : List UInt8} {b t : UInt8} (h : WireAlarm fr b t) : ∃ r, IsReport fr b r ∧ announces r := by
  obtain ⟨-, l, s, y, ev, rest, hc⟩ := h
  exact ⟨_, ⟨_, _, _, hc, rfl⟩, .inr ⟨_, rfl, rfl⟩⟩

/-- C123: with an unchanged network and no alarm in the file it was started with, in the end no restart shows an alarm of a node that
raised one, whenever that was. -/
theorem C123_no_alarm_after_restart (hf : FairSys e) (hg : GoodFile ns) (h0 : e.st 0 = sysStart true ns) (x : FileAt)
    (hn : ∀ m, SameNetwork ns (e.st m).ctl.hist) {n : Nat} {b : UInt8} {ref : Nat} (hl : (start true ns).list.get b.toNat = some ref)
    (hq : NoMoreRequests e n) (hr : NoMoreReads e n) {xs : List Session}
    (hx : sessions (connSteps e n) = xs.map Session.reads) (ho : ∀ x ∈ xs, x.Ok)
    (hi : ∃ m, Settled (e.st m).ctl) (ha : ∃ m, (e.st m).ctl.saver ≠ .absent)
    (hlife : Life db (start true ns)) (hsen : ∀ m l, e.lab m = some (.ctl l) → SensibleC l)
    (hfile : ∀ x ∈ ns, boolState x "alarm".toList ≠ some true)
    (hsay : ∃ fr ∈ onWire xs, ∃ r, IsReport fr b r ∧ announces r) :
    ∃ m, ∀ m', m ≤ m' → Sys.dead (e.st m') ∨ ShownAgain e x m' b.toNat fun v => boolState v "alarm".toList ≠ some true := by
  by_cases hdead : ∃ m, Sys.dead (e.st m)
  · obtain ⟨m, hm⟩ := hdead
    exact ⟨m, fun m' h => .inl (dead_stays h hm)⟩
  obtain ⟨k, h1, h2, h3, h4, h5, h6⟩ := same_moment hf hg h0 hn hl hq hr hx ho hi ha hsay fun m h => hdead ⟨m, h⟩
  exact C122_no_alarm_after_restart_partial hf hg h0 x h1.1 h2 h3 hq hr hx ho h4 h5 h6 h1.2 hlife hsen hfile

/-- C123: and the type of the alarm is remembered. -/
theorem C123_last_type_after_restart (hf : FairSys e) (hg : GoodFile ns) (h0 : e.st 0 = sysStart true ns) (x : FileAt)
    (hn : ∀ m, SameNetwork ns (e.st m).ctl.hist) {n : Nat} {b : UInt8} {ref : Nat} (hl : (start true ns).list.get b.toNat = some ref)
    (hq : NoMoreRequests e n) (hr : NoMoreReads e n) {xs : List Session}
    (hx : sessions (connSteps e n) = xs.map Session.reads) (ho : ∀ x ∈ xs, x.Ok)
    (hi : ∃ m, Settled (e.st m).ctl) (ha : ∃ m, (e.st m).ctl.saver ≠ .absent)
    (hlife : Life db (start true ns)) (hsen : ∀ m l, e.lab m = some (.ctl l) → SensibleC l) {t : UInt8}
    (hsome : ∃ fr ∈ onWire xs, WireAlarm fr b t) (hagree : ∀ fr ∈ onWire xs, ∀ t', WireAlarm fr b t' → t' = t) :
    ∃ m, ∀ m', m ≤ m' → Sys.dead (e.st m') ∨
      ShownAgain e x m' b.toNat fun v => floatState v "alarmLastType".toList = some (t.toNat : Rat) := by
  by_cases hdead : ∃ m, Sys.dead (e.st m)
  · obtain ⟨m, hm⟩ := hdead
    exact ⟨m, fun m' h => .inl (dead_stays h hm)⟩
  obtain ⟨fr, g1, g2⟩ := hsome
  obtain ⟨r, g3, g4⟩ := wireAlarm_announces g2
  obtain ⟨k, h1, h2, h3, h4, h5, h6⟩ := same_moment hf hg h0 hn hl hq hr hx ho hi ha ⟨fr, g1, r, g3, g4⟩ fun m h => hdead ⟨m, h⟩
  exact C122_last_type_after_restart_partial hf hg h0 x h1.1 h2 h3 hq hr hx ho h4 h5 h6 h1.2 hlife hsen ⟨fr, g1, g2⟩ hagree

/-! ### A case -/

/-- The file holds node 2. The stick reports node 2; before the discovery has gone through the nodes, an alarm frame of node 2 is read and
worked off, and the alarm is taken back. Then node 2 is identified and everything is saved. -/
def exSameAlarm : List SLabel :=
  [.conn (.connect true), .connected true, .ctl .startDisc, .ctl .startSaver, .ctl (.disc (.nodes [true, true])),
    .conn (.reader (.read ⟨exAlarm, true, 5⟩))] ++
    exWork.map .conn ++ [.ctl (.deliver 0), .ctl d, .ctl (.deliver 0), .ctl d, .ctl (.deliver 0), .ctl d, .ctl (.node 0 (.proc 0))] ++
    (((demoIdent 2).drop 1).dropLast.map (CLabel.node 0) ++ List.replicate 5 (CLabel.saver .trigger) ++ saveOnce).map SLabel.ctl

theorem sameAlarm_sensible : ∀ l, SLabel.ctl l ∈ exSameAlarm → SensibleC l := by
  intro l hl
  simp only [exSameAlarm, List.mem_append, List.mem_cons, List.mem_map, SLabel.ctl.injEq, reduceCtorEq, List.not_mem_nil,
    and_false, exists_false, or_false, false_or, exists_eq_right] at hl
  have hid : ∀ l, (l ∈ ((demoIdent 2).drop 1).dropLast.map (CLabel.node 0) ∨ l ∈ List.replicate 5 (CLabel.saver .trigger)) ∨ l ∈ saveOnce →
      SensibleC l := by
    intro l h
    refine identified_sensible l ?_
    rcases h with (h | h) | h
    · simp only [identifiedRun, List.mem_append]; exact .inl (.inl (.inr h))
    · rw [List.eq_of_mem_replicate h]; decide
    · simp only [identifiedRun, List.mem_append]; exact .inr h
  rcases hl with (h | h) | h
  all_goals first
    | (exact hid l (by simpa only [List.mem_map] using h); done)
    | skip
  · rcases h with rfl | rfl | rfl
    · trivial
    · trivial
    · show (2 : Nat) < 2 ^ 63; decide
  · rcases h with rfl | rfl | rfl | rfl | rfl | rfl | rfl <;> trivial

/-- A fair execution that meets the hypotheses: at moment 6 the frame has been read and the discovery has not yet looked at node 2. -/
example : ∃ e : Exec (sysStep .perIteration demoDB), FairSys e ∧ GoodFile [fileNode 2] ∧ e.st 0 = sysStart true [fileNode 2] ∧
    (∀ m, SameNetwork [fileNode 2] (e.st m).ctl.hist) ∧ (start true [fileNode 2]).list.get (2 : UInt8).toNat = some 0 ∧
    (e.st 6).ctl.disc = .loop [2] ∧ NoMoreRequests e 6 ∧ NoMoreReads e 6 ∧
    sessions (connSteps e 6) = [exAlarmSession, []].map Session.reads ∧ (∀ x ∈ [exAlarmSession, []], x.Ok) ∧
    (∃ m, Settled (e.st m).ctl) ∧ (∃ m, (e.st m).ctl.saver ≠ .absent) ∧
    Life demoDB (start true [fileNode 2]) ∧ (∀ m l, e.lab m = some (.ctl l) → SensibleC l) ∧
    (∃ fr ∈ onWire [exAlarmSession, []], WireAlarm fr 2 7) ∧ (∀ x ∈ [fileNode 2], boolState x "alarm".toList ≠ some true) ∧ (∀ n, ¬ Sys.dead (e.st n)) := by
  have hv : (runSteps (sysStep .perIteration demoDB) (sysStart true [fileNode 2]) exSameAlarm).map (fun s =>
      restB s.conn && cRestB s.ctl && s.conn.crashed.isNone && s.ctl.crashed.isNone && onlyReply [true, true] s.ctl.hist &&
      (decide (s.ctl.disc = .done) && decide (s.ctl.list = [(2, 0)]) && decide ((s.ctl.heap 0).nIdent = 1) &&
      decide ((s.ctl.heap 0).ident 0 = .done) && decide (s.ctl.nHeap = 1) && decide (s.ctl.saver = .idle) &&
      decide (updates s.ctl.hist = 6))) = some true := by
    decide +kernel
  cases hr : runSteps (sysStep .perIteration demoDB) (sysStart true [fileNode 2]) exSameAlarm with
  | none => rw [hr] at hv; cases hv
  | some s =>
    have hr0 : runSteps (sysStep .perIteration demoDB) (sysStart true [fileNode 2]) exSameAlarm = some (sysTail s 0) := hr
    rw [hr] at hv
    simp only [Option.map_some, Option.some.injEq, Bool.and_eq_true, Option.isNone_iff_eq_none, decide_eq_true_eq] at hv
    obtain ⟨⟨⟨⟨⟨v1, v2⟩, v3⟩, v4⟩, v5⟩, ⟨⟨⟨⟨⟨a1, a2⟩, a3⟩, a4⟩, a5⟩, a6⟩, a7⟩ := hv
    let e0 := execFin (sysStep .perIteration demoDB) (sysStart true [fileNode 2]) exSameAlarm s hr none (by simp)
    have hst : e0.st exSameAlarm.length = s := execFin_end _ _ (Nat.le_refl _)
    have hp := sys_parts (e := e0) (f := true) (ns := [fileNode 2]) (by simp [e0, execFin, runSteps]) exSameAlarm.length
    rw [hst] at hp
    let e := execTail (sysStep .perIteration demoDB) (sysStart true [fileNode 2]) exSameAlarm (sysTail s) (.ctl (.tick 1)) hr0
      (sysTail_step v3 v4)
    have v : ∀ n (p : Sys → Bool), n < exSameAlarm.length →
        (runSteps (sysStep .perIteration demoDB) (sysStart true [fileNode 2]) (exSameAlarm.take n)).map p = some true →
        p (e.st n) = true := by
      intro n p hn hp
      cases hr : runSteps (sysStep .perIteration demoDB) (sysStart true [fileNode 2]) (exSameAlarm.take n) with
      | none => rw [hr] at hp; cases hp
      | some t => rw [hr] at hp; rw [show e.st n = t from execTail_mid hr0 _ hn hr]; simpa using hp
    have hlab : ∀ m, 6 ≤ m → ∃ l, e.lab m = some l ∧ inert l = true := by
      intro m hm
      refine ⟨_, rfl, ?_⟩
      by_cases hlt : m < exSameAlarm.length
      · have hall : ((exSameAlarm.drop 6).all inert) = true := by decide +kernel
        rw [List.all_eq_true] at hall
        rw [if_pos hlt, List.getElem?_eq_getElem hlt, Option.getD_some]
        refine hall _ (List.mem_of_getElem? (i := m - 6) ?_)
        rw [List.getElem?_drop, show 6 + (m - 6) = m by omega, List.getElem?_eq_getElem hlt]
      · rw [if_neg hlt]; rfl
    have hdeadB : ∀ n, ¬ Sys.dead (e.st n) := by
      intro n hd
      have h1 := dead_stays (e := e) (n := n) (m := n + exSameAlarm.length) (by omega) hd
      rw [show e.st (n + exSameAlarm.length) = _ from execTail_end hr0 _ (by omega)] at h1
      rcases h1 with h1 | h1
      · exact h1 v3
      · exact h1 v4
    have hsame : ∀ m, SameNetwork [fileNode 2] (e.st m).ctl.hist := by
      intro m bm hm
      have h1 : CEv.reply bm ∈ (e.st (m + exSameAlarm.length)).ctl.hist := hist_mono_sys (by omega) hm
      rw [show e.st (m + exSameAlarm.length) = _ from execTail_end hr0 _ (by omega)] at h1
      refine same_onlyReply (bm := [true, true]) (h := s.ctl.hist) v5 ?_ bm h1
      intro i hi hb
      rcases i with _ | _ | i
      · cases hi
      · exact ⟨_, List.mem_singleton.2 rfl, rfl⟩
      · simp at hb
    have hend : e.st exSameAlarm.length = sysTail s 0 := by
      have := execTail_end hr0 (sysTail_step v3 v4) (Nat.le_refl exSameAlarm.length)
      rw [Nat.sub_self] at this
      exact this
    refine ⟨e, sys_fair hr0 v3 v4 (quiet_of_restB ⟨_, hp.1⟩ v1) (cquiet_of_rest (cinv fileGood hp.2) v2), fileGood, ?_, hsame, rfl, ?_,
      ?_, ?_, ?_, exAlarmSession_ok, ⟨exSameAlarm.length, ?_⟩, ⟨exSameAlarm.length, ?_⟩, exFile_life, ?_,
      ⟨exAlarm, by decide, ?_⟩, ?_, hdeadB⟩
    · exact execTail_mid hr0 _ (by decide) rfl
    · simpa using v 6 (fun s => decide (s.ctl.disc = .loop [2])) (by decide) (by decide +kernel)
    · intro m hm w src hc
      obtain ⟨l, h1, h2⟩ := hlab m hm
      rw [h1] at hc; cases hc; cases h2
    · intro m hm
      obtain ⟨l, h1, h2⟩ := hlab m hm
      constructor
      · intro r hc; rw [h1] at hc; cases hc; cases h2
      · intro hc; rw [h1] at hc; cases hc; cases h2
    · rfl
    · rw [hend]
      refine ⟨a1, fun id ref i hl => ?_⟩
      have hl : (id, ref) ∈ s.ctl.list := hl
      rw [a2] at hl
      simp only [List.mem_singleton, Prod.mk.injEq] at hl
      obtain ⟨-, rfl⟩ := hl
      by_cases hi : i = 0
      · subst hi; exact .inr a4
      · exact .inl (((cinv fileGood hp.2).safe 0 (by omega)).wake.fresh i (by omega))
    · rw [hend]; show s.ctl.saver ≠ _; rw [a6]; simp
    · intro m l hl
      have hl : some (if m < exSameAlarm.length then exSameAlarm[m]?.getD (.ctl (.tick 1)) else .ctl (.tick 1)) = some (SLabel.ctl l) := hl
      by_cases hlt : m < exSameAlarm.length
      · rw [if_pos hlt, List.getElem?_eq_getElem hlt, Option.getD_some] at hl
        injection hl with hl
        exact sameAlarm_sensible l (hl ▸ List.getElem_mem hlt)
      · rw [if_neg hlt] at hl
        cases hl
        trivial
    · exact ⟨by decide, 0, 0, 0, 0, [], 0x00, 0x00, 0x08, [], ⟨0x0E, 0x73, rfl, rfl, by decide⟩, rfl, by decide⟩
    · intro x hx; rw [List.mem_singleton.1 hx]; decide +kernel

end Verif.Props
