import Verif.Props.SameNetworkWire
import Verif.Props.WireFile

/-
C123 together with C122: with an unchanged network, what a node said on the wire at any moment of the run is found in the file after a
restart.
-/

set_option linter.unusedSimpArgs false
set_option linter.unusedVariables false
set_option maxHeartbeats 1000000

namespace Verif.Props

open Verif.Go Verif.Model Verif.Model.Conn Verif.Spec Verif.Spec.SaveEnd Verif.Lemmas Verif.Lemmas.NodeM Verif.Lemmas.Conn Verif.Lemmas.Ctl
  Verif.Lemmas.EndToEnd Verif.Lemmas.System

variable {lv : LoopVars} {db : DB} {ns : List Node} {e : Exec (sysStep lv db)}

/-- The discovery is over and no identification is under way at any listed node. -/
def Settled (s : CSt) : Prop :=
  s.disc = .done ∧ ∀ id ref i, (id, ref) ∈ s.list → (s.heap ref).ident i = .absent ∨ (s.heap ref).ident i = .done

theorem settled_stays {m : Nat} (h : Settled (e.st m).ctl) (m' : Nat) (hm : m ≤ m') : Settled (e.st m').ctl := by
  have := exec_keep (ctlExec e) (Q := fun s => s.disc = .done ∧
      ∀ id ref i, (id, ref) ∈ (e.st m).ctl.list → (s.heap ref).ident i = .absent ∨ (s.heap ref).ident i = .done)
    (fun s l s' q hst => ⟨done_step q.1 hst, fun id ref i h => ident_rests q.1 hst (fun i => q.2 id ref i h) i⟩) (n := m) h m' hm
  refine ⟨this.1, fun id ref i hi => this.2 id ref i ?_⟩
  rw [list_stays_sys h.1 m' hm] at hi
  exact hi

theorem saver_stays {m : Nat} (h : (e.st m).ctl.saver ≠ .absent) (m' : Nat) (hm : m ≤ m') : (e.st m').ctl.saver ≠ .absent := by
  refine exec_keep (ctlExec e) (Q := fun s => s.saver ≠ .absent) (fun s l s' hq hs => ?_) (n := m) h m' hm
  ctl_step hs
  all_goals first
    | assumption
    | (simp only [put_saver]; assumption)
    | (intro hc; cases hc; done)
    | (simp_all; done)
    | grind [CSt.push]

/-- The push of an update. -/
def isUpdate : CEv → Bool
  | .pushed (.updated _) _ => true
  | _ => false

theorem updates_mem {h : List CEv} : 0 < updates h → ∃ ev, isUpdate ev = true ∧ ev ∈ h := by
  induction h with
  | nil => intro h; cases h
  | cons ev h ih =>
    intro hu
    cases hev : isUpdate ev with
    | true => exact ⟨ev, hev, List.mem_cons_self⟩
    | false =>
      have : updates (ev :: h) = updates h := by
        cases ev with
        | pushed p t => cases p <;> first | rfl | cases hev
        | _ => rfl
      obtain ⟨ev', h1, h2⟩ := ih (this ▸ hu)
      exact ⟨ev', h1, List.mem_cons_of_mem _ h2⟩

theorem mem_updates {h : List CEv} {ev : CEv} (he : isUpdate ev = true) : ev ∈ h → 0 < updates h := by
  induction h with
  | nil => intro h; cases h
  | cons ev' h ih =>
    intro hm
    have le : updates h ≤ updates (ev' :: h) := by
      cases ev' with
      | pushed p t => cases p <;> simp [updates]
      | _ => simp [updates]
    rcases List.mem_cons.1 hm with rfl | hm
    · cases ev with
      | pushed p t => cases p <;> first | exact Nat.succ_pos _ | cases he
      | _ => cases he
    · exact Nat.lt_of_lt_of_le (ih hm) le

theorem updates_mono {s s' : CSt} {l : CLabel} (h : cStep db s l = some s') (hu : 0 < updates s.hist) : 0 < updates s'.hist := by
  obtain ⟨ev, h1, h2⟩ := updates_mem hu
  exact mem_updates h1 (Verif.Lemmas.System.hist_mono h h2)

/-- A report is applied by the step that processes it. -/
theorem applied_by {s s' : CSt} {l : CLabel} {k ref : Nat} {r : Report} (h : cStep db s l = some s') (ho : CEv.applied k ref r ∉ s.hist)
    (hm : CEv.applied k ref r ∈ s'.hist) : l = .deliver k ∧ s.deliv k = .process ref r := by
  ctl_step h
  all_goals first
    | exact absurd hm ho
    | (simp only [put_hist, CSt.push] at hm; grind)
    | grind [CSt.push, put_hist]

/-- With an unchanged network a state that is applied is announced. -/
theorem C123_announced {f : Bool} (hg : GoodFile ns) {s : CSt} (hr : CReach db f ns s) (hn : SameNetwork ns s.hist) {k ref : Nat} {r : Report}
    (ha : CEv.applied k ref r ∈ s.hist) (hs : announces r) : 0 < updates s.hist := by
  obtain ⟨ls, h⟩ := hr
  refine (crun_induct (P := fun s => CReach db f ns s ∧ (SameNetwork ns s.hist → CEv.applied k ref r ∈ s.hist → 0 < updates s.hist))
    ?_ ls _ _ ⟨⟨[], rfl⟩, fun _ hm => ?_⟩ h).2 hn ha
  · intro t l t' ⟨hr, hi⟩ hst
    refine ⟨creach_step hr hst, fun hn' hm => ?_⟩
    have hnt : SameNetwork ns t.hist := fun bm hb => hn' bm (Verif.Lemmas.System.hist_mono hst hb)
    by_cases hold : CEv.applied k ref r ∈ t.hist
    · exact updates_mono hst (hi hnt hold)
    obtain ⟨rfl, hd⟩ := applied_by hst hold hm
    have hc := cinv hg hr
    have hlt : ref < t.nHeap := hc.dref k ref (by rw [hd]; rfl)
    have hconn : (t.heap ref).node.hasConn = true := by
      refine (hc.conn ref hlt).resolve_left ?_
      have := (undisturbed hr hnt).disc
      cases hx : t.disc <;> rw [hx] at this <;> first | exact this.elim | (intro h; cases h)
    obtain ⟨id, -, h1, -⟩ := C88_report_announced_partial db f ns hg t t' hr k ref r hd hconn hst
    rw [(h1 hs).1]
    exact Nat.succ_pos _
  · exfalso
    have hi := apInv hg (db := db) (f := f) (ns := ns) (s := start f ns) ⟨[], rfl⟩
    obtain ⟨-, id, h2, -⟩ := hi.ap k ref r hm
    have h3 := (hi.arr k id r (arrivalOf_mem h2)).1
    rw [show (start f ns).nDeliv = 0 from load_nDeliv ns _] at h3
    exact absurd h3 (Nat.not_lt_zero k)

/-- With an unchanged network there comes a moment from which on C122 can be used. -/
theorem same_moment (hf : FairSys e) (hg : GoodFile ns) (h0 : e.st 0 = sysStart true ns) (hn : ∀ m, SameNetwork ns (e.st m).ctl.hist)
    {n : Nat} {b : UInt8} {ref : Nat} (hl : (start true ns).list.get b.toNat = some ref) (hq : NoMoreRequests e n) (hr : NoMoreReads e n)
    {xs : List Session} (hx : sessions (connSteps e n) = xs.map Session.reads) (ho : ∀ x ∈ xs, x.Ok)
    (hi : ∃ m, Settled (e.st m).ctl) (ha : ∃ m, (e.st m).ctl.saver ≠ .absent)
    (hsay : ∃ fr ∈ onWire xs, ∃ r, IsReport fr b r ∧ announces r) (hal : ∀ m, ¬ Sys.dead (e.st m)) :
    ∃ k, Settled (e.st k).ctl ∧ (e.st k).ctl.list.get b.toNat = some ref ∧ AllApplied b (e.st k).ctl ∧
      (e.st k).ctl.saver ≠ .absent ∧ (e.st k).ctl.saver ≠ .stuck ∧ 0 < updates (e.st k).ctl.hist := by
  obtain ⟨m1, h1⟩ := hi
  obtain ⟨m2, h2⟩ := ha
  obtain ⟨m3, h3⟩ := C123_all_applied hf hg h0 hn hl hq hr hx ho
  obtain ⟨q0, q1, q2⟩ := (h3 (m1 + m2 + m3) (by omega)).resolve_left (hal _)
  refine ⟨m1 + m2 + m3, settled_stays h1 _ (by omega), q2, q1, saver_stays h2 _ (by omega),
    (C123_list_untouched (sys_parts h0 _).2 (hn _)).2.2.2.2, ?_⟩
  obtain ⟨fr, g1, r, g2, g3⟩ := hsay
  obtain ⟨k, hk⟩ := appliedTo_mem.1 ((applied_iff q0 q2 r).2 q1 ⟨fr, g1, g2⟩)
  exact C123_announced hg (sys_parts h0 _).2 (hn _) hk g3

theorem says_bool_state {r : Report} {key : List Char} {y : Bool} (h : saysBool r key = some y) : isState r = true := by
  cases r <;> first | rfl | (by_cases hk : key = "on".toList <;> simp [saysBool, hk] at h)

theorem says_float_state {r : Report} {key : List Char} {y : Rat} (h : saysFloat r key = some y) : isState r = true := by
  cases r <;> first | rfl | cases h


/-- C123: with an unchanged network, if the frames of a node of the file that say whether it is on agree, whenever they were read, then in
the end every restart finds that in the file. -/
theorem C123_on_after_restart (hf : FairSys e) (hg : GoodFile ns) (h0 : e.st 0 = sysStart true ns) (x : FileAt)
    (hn : ∀ m, SameNetwork ns (e.st m).ctl.hist) {n : Nat} {b : UInt8} {ref : Nat} (hl : (start true ns).list.get b.toNat = some ref)
    (hq : NoMoreRequests e n) (hr : NoMoreReads e n) {xs : List Session}
    (hx : sessions (connSteps e n) = xs.map Session.reads) (ho : ∀ x ∈ xs, x.Ok)
    (hi : ∃ m, Settled (e.st m).ctl) (ha : ∃ m, (e.st m).ctl.saver ≠ .absent)
    (hlife : Life db (start true ns)) (hsen : ∀ m l, e.lab m = some (.ctl l) → SensibleC l) {y : Bool}
    (hsome : ∃ fr ∈ onWire xs, WireOn fr b y) (hagree : ∀ fr ∈ onWire xs, ∀ z, WireOn fr b z → z = y) :
    ∃ m, ∀ m', m ≤ m' → Sys.dead (e.st m') ∨ ShownAgain e x m' b.toNat fun v => boolState v "on".toList = some y := by
  by_cases hdead : ∃ m, Sys.dead (e.st m)
  · obtain ⟨m, hm⟩ := hdead
    exact ⟨m, fun m' h => .inl (dead_stays h hm)⟩
  obtain ⟨fr, g1, g2⟩ := hsome
  obtain ⟨r, g3, g4⟩ := (wireOn_iff fr b y).1 g2
  obtain ⟨k, h1, h2, h3, h4, h5, h6⟩ := same_moment hf hg h0 hn hl hq hr hx ho hi ha ⟨fr, g1, r, g3, .inl (says_bool_state g4)⟩ fun m h => hdead ⟨m, h⟩
  exact C122_on_after_restart_partial hf hg h0 x h1.1 h2 h3 hq hr hx ho h4 h5 h6 h1.2 hlife hsen ⟨fr, g1, g2⟩ hagree

/-- C123: likewise the level of a dimmer. -/
theorem C123_level_after_restart (hf : FairSys e) (hg : GoodFile ns) (h0 : e.st 0 = sysStart true ns) (x : FileAt)
    (hn : ∀ m, SameNetwork ns (e.st m).ctl.hist) {n : Nat} {b : UInt8} {ref : Nat} (hl : (start true ns).list.get b.toNat = some ref)
    (hq : NoMoreRequests e n) (hr : NoMoreReads e n) {xs : List Session}
    (hx : sessions (connSteps e n) = xs.map Session.reads) (ho : ∀ x ∈ xs, x.Ok)
    (hi : ∃ m, Settled (e.st m).ctl) (ha : ∃ m, (e.st m).ctl.saver ≠ .absent)
    (hlife : Life db (start true ns)) (hsen : ∀ m l, e.lab m = some (.ctl l) → SensibleC l) {y : Nat}
    (hsome : ∃ fr ∈ onWire xs, WireLevel fr b y) (hagree : ∀ fr ∈ onWire xs, ∀ z, WireLevel fr b z → z = y) :
    ∃ m, ∀ m', m ≤ m' → Sys.dead (e.st m') ∨ ShownAgain e x m' b.toNat fun v => floatState v "level".toList = some (y : Rat) := by
  by_cases hdead : ∃ m, Sys.dead (e.st m)
  · obtain ⟨m, hm⟩ := hdead
    exact ⟨m, fun m' h => .inl (dead_stays h hm)⟩
  obtain ⟨fr, g1, g2⟩ := hsome
  obtain ⟨r, g3, g4⟩ := (wireLevel_iff fr b y).1 ⟨y, rfl, g2⟩
  obtain ⟨k, h1, h2, h3, h4, h5, h6⟩ := same_moment hf hg h0 hn hl hq hr hx ho hi ha ⟨fr, g1, r, g3, .inl (says_float_state g4)⟩ fun m h => hdead ⟨m, h⟩
  exact C122_level_after_restart_partial hf hg h0 x h1.1 h2 h3 hq hr hx ho h4 h5 h6 h1.2 hlife hsen ⟨fr, g1, g2⟩ hagree

/-- C123: and every other state but those of an alarm, in terms of the reports the frames carry. -/
theorem C123_state_after_restart (hf : FairSys e) (hg : GoodFile ns) (h0 : e.st 0 = sysStart true ns) (x : FileAt)
    (hn : ∀ m, SameNetwork ns (e.st m).ctl.hist) {n : Nat} {b : UInt8} {ref : Nat} (hl : (start true ns).list.get b.toNat = some ref)
    (hq : NoMoreRequests e n) (hr : NoMoreReads e n) {xs : List Session}
    (hx : sessions (connSteps e n) = xs.map Session.reads) (ho : ∀ x ∈ xs, x.Ok)
    (hi : ∃ m, Settled (e.st m).ctl) (ha : ∃ m, (e.st m).ctl.saver ≠ .absent)
    (hlife : Life db (start true ns)) (hsen : ∀ m l, e.lab m = some (.ctl l) → SensibleC l)
    {key : List Char} (hk : key ≠ "alarm".toList) (hk' : key ≠ "alarmLastType".toList) {y : Rat}
    (hsome : ∃ fr ∈ onWire xs, ∃ r, IsReport fr b r ∧ saysFloat r key = some y)
    (hagree : ∀ fr ∈ onWire xs, ∀ r, IsReport fr b r → saysFloat r key = some y ∨ saysFloat r key = none) :
    ∃ m, ∀ m', m ≤ m' → Sys.dead (e.st m') ∨ ShownAgain e x m' b.toNat fun v => floatState v key = some y := by
  by_cases hdead : ∃ m, Sys.dead (e.st m)
  · obtain ⟨m, hm⟩ := hdead
    exact ⟨m, fun m' h => .inl (dead_stays h hm)⟩
  obtain ⟨fr, g1, r, g3, g4⟩ := hsome
  obtain ⟨k, h1, h2, h3, h4, h5, h6⟩ := same_moment hf hg h0 hn hl hq hr hx ho hi ha ⟨fr, g1, r, g3, .inl (says_float_state g4)⟩ fun m h => hdead ⟨m, h⟩
  exact C122_state_after_restart_partial hf hg h0 x h1.1 h2 h3 hq hr hx ho h4 h5 h6 h1.2 hlife hsen hk hk' ⟨fr, g1, r, g3, g4⟩ hagree

/-! ### A case -/

/-- The file saved when node 2 had been found but not identified. -/
def exFileText : List Char :=
  match cRun demoDB (newController true) discOne with
  | some s => saveText s.nodes
  | none => []

theorem exFile_load : loadConfig inOrder inOrder (some exFileText) (newController true) = .ret false (start true [fileNode 2]) := by
  unfold loadConfig
  have h : (match readConfig inOrder (some exFileText) with
      | .nodes l => allSome ((inOrder.run (l.map Prod.snd)).map JNode.toNode)
      | _ => none) = some [fileNode 2] := by decide +kernel
  revert h
  cases readConfig inOrder (some exFileText) with
  | nodes l => intro h; simp only at h ⊢; rw [h]; rfl
  | _ => intro h; cases h

/-- A program started with that file. -/
theorem exFile_life : Life demoDB (start true [fileNode 2]) := by
  have h : ∃ s, cRun demoDB (newController true) discOne = some s := ⟨_, rfl⟩
  obtain ⟨s, hs⟩ := h
  have ht : exFileText = saveText s.nodes := by simp only [exFileText, hs]
  refine .restart (s := s) inOrder inOrder true (life_run discOne (.first true) (fun l hl => ?_) hs) (by rw [← ht]; exact exFile_load)
  exact identified_sensible l (by simp only [identifiedRun, List.append_assoc]; exact List.mem_append_left _ hl)

/-- The file holds node 2. The stick reports node 2; before the discovery has gone through the nodes, a frame "on" of node 2 is read and
worked off. Then node 2 is identified and everything is saved. -/
def exSameSaved : List SLabel :=
  [.conn (.connect true), .connected true, .ctl .startDisc, .ctl .startSaver, .ctl (.disc (.nodes [true, true])),
    .conn (.reader (.read ⟨exReport, true, 5⟩))] ++
    exWork.map .conn ++ [.ctl (.deliver 0), .ctl d, .ctl (.deliver 0), .ctl d, .ctl (.deliver 0), .ctl d] ++
    (((demoIdent 2).drop 1).dropLast.map (CLabel.node 0) ++ List.replicate 4 (CLabel.saver .trigger) ++ saveOnce).map SLabel.ctl

theorem same_sensible : ∀ l, SLabel.ctl l ∈ exSameSaved → SensibleC l := by
  intro l hl
  simp only [exSameSaved, List.mem_append, List.mem_cons, List.mem_map, SLabel.ctl.injEq, reduceCtorEq, List.not_mem_nil,
    and_false, exists_false, or_false, false_or, exists_eq_right] at hl
  have hid : ∀ l, (l ∈ ((demoIdent 2).drop 1).dropLast.map (CLabel.node 0) ∨ l ∈ List.replicate 4 (CLabel.saver .trigger)) ∨ l ∈ saveOnce →
      SensibleC l := by
    intro l h
    refine identified_sensible l ?_
    rcases h with (h | h) | h
    · simp only [identifiedRun, List.mem_append]; exact .inl (.inl (.inr h))
    · rw [List.eq_of_mem_replicate h]; decide
    · simp only [identifiedRun, List.mem_append]; exact .inr h
  rcases hl with (h | h) | h
  all_goals first
    | (exact hid l (by simpa only [List.mem_map] using h); done)
    | skip
  · rcases h with rfl | rfl | rfl
    · trivial
    · trivial
    · show (2 : Nat) < 2 ^ 63; decide
  · rcases h with rfl | rfl | rfl | rfl | rfl | rfl <;> trivial

/-- A fair execution that meets the hypotheses: at moment 6 the frame has been read and the discovery has not yet looked at node 2. -/
example : ∃ e : Exec (sysStep .perIteration demoDB), FairSys e ∧ GoodFile [fileNode 2] ∧ e.st 0 = sysStart true [fileNode 2] ∧
    (∀ m, SameNetwork [fileNode 2] (e.st m).ctl.hist) ∧ (start true [fileNode 2]).list.get (2 : UInt8).toNat = some 0 ∧
    (e.st 6).ctl.disc = .loop [2] ∧ NoMoreRequests e 6 ∧ NoMoreReads e 6 ∧
    sessions (connSteps e 6) = [exSysSession, []].map Session.reads ∧ (∀ x ∈ [exSysSession, []], x.Ok) ∧
    (∃ m, Settled (e.st m).ctl) ∧ (∃ m, (e.st m).ctl.saver ≠ .absent) ∧
    Life demoDB (start true [fileNode 2]) ∧ (∀ m l, e.lab m = some (.ctl l) → SensibleC l) ∧
    (∃ fr ∈ onWire [exSysSession, []], WireOn fr 2 true) ∧ (∀ n, ¬ Sys.dead (e.st n)) := by
  have hv : (runSteps (sysStep .perIteration demoDB) (sysStart true [fileNode 2]) exSameSaved).map (fun s =>
      restB s.conn && cRestB s.ctl && s.conn.crashed.isNone && s.ctl.crashed.isNone && onlyReply [true, true] s.ctl.hist &&
      (decide (s.ctl.disc = .done) && decide (s.ctl.list = [(2, 0)]) && decide ((s.ctl.heap 0).nIdent = 1) &&
      decide ((s.ctl.heap 0).ident 0 = .done) && decide (s.ctl.nHeap = 1) && decide (s.ctl.saver = .idle) &&
      decide (updates s.ctl.hist = 5))) = some true := by
    decide +kernel
  cases hr : runSteps (sysStep .perIteration demoDB) (sysStart true [fileNode 2]) exSameSaved with
  | none => rw [hr] at hv; cases hv
  | some s =>
    have hr0 : runSteps (sysStep .perIteration demoDB) (sysStart true [fileNode 2]) exSameSaved = some (sysTail s 0) := hr
    rw [hr] at hv
    simp only [Option.map_some, Option.some.injEq, Bool.and_eq_true, Option.isNone_iff_eq_none, decide_eq_true_eq] at hv
    obtain ⟨⟨⟨⟨⟨v1, v2⟩, v3⟩, v4⟩, v5⟩, ⟨⟨⟨⟨⟨a1, a2⟩, a3⟩, a4⟩, a5⟩, a6⟩, a7⟩ := hv
    let e0 := execFin (sysStep .perIteration demoDB) (sysStart true [fileNode 2]) exSameSaved s hr none (by simp)
    have hst : e0.st exSameSaved.length = s := execFin_end _ _ (Nat.le_refl _)
    have hp := sys_parts (e := e0) (f := true) (ns := [fileNode 2]) (by simp [e0, execFin, runSteps]) exSameSaved.length
    rw [hst] at hp
    let e := execTail (sysStep .perIteration demoDB) (sysStart true [fileNode 2]) exSameSaved (sysTail s) (.ctl (.tick 1)) hr0
      (sysTail_step v3 v4)
    have v : ∀ n (p : Sys → Bool), n < exSameSaved.length →
        (runSteps (sysStep .perIteration demoDB) (sysStart true [fileNode 2]) (exSameSaved.take n)).map p = some true →
        p (e.st n) = true := by
      intro n p hn hp
      cases hr : runSteps (sysStep .perIteration demoDB) (sysStart true [fileNode 2]) (exSameSaved.take n) with
      | none => rw [hr] at hp; cases hp
      | some t => rw [hr] at hp; rw [show e.st n = t from execTail_mid hr0 _ hn hr]; simpa using hp
    have hlab : ∀ m, 6 ≤ m → ∃ l, e.lab m = some l ∧ inert l = true := by
      intro m hm
      refine ⟨_, rfl, ?_⟩
      by_cases hlt : m < exSameSaved.length
      · have hall : ((exSameSaved.drop 6).all inert) = true := by decide +kernel
        rw [List.all_eq_true] at hall
        rw [if_pos hlt, List.getElem?_eq_getElem hlt, Option.getD_some]
        refine hall _ (List.mem_of_getElem? (i := m - 6) ?_)
        rw [List.getElem?_drop, show 6 + (m - 6) = m by omega, List.getElem?_eq_getElem hlt]
      · rw [if_neg hlt]; rfl
    have hdeadB : ∀ n, ¬ Sys.dead (e.st n) := by
      intro n hd
      have h1 := dead_stays (e := e) (n := n) (m := n + exSameSaved.length) (by omega) hd
      rw [show e.st (n + exSameSaved.length) = _ from execTail_end hr0 _ (by omega)] at h1
      rcases h1 with h1 | h1
      · exact h1 v3
      · exact h1 v4
    have hsame : ∀ m, SameNetwork [fileNode 2] (e.st m).ctl.hist := by
      intro m bm hm
      have h1 : CEv.reply bm ∈ (e.st (m + exSameSaved.length)).ctl.hist := hist_mono_sys (by omega) hm
      rw [show e.st (m + exSameSaved.length) = _ from execTail_end hr0 _ (by omega)] at h1
      refine same_onlyReply (bm := [true, true]) (h := s.ctl.hist) v5 ?_ bm h1
      intro i hi hb
      rcases i with _ | _ | i
      · cases hi
      · exact ⟨_, List.mem_singleton.2 rfl, rfl⟩
      · simp at hb
    have hend : e.st exSameSaved.length = sysTail s 0 := by
      have := execTail_end hr0 (sysTail_step v3 v4) (Nat.le_refl exSameSaved.length)
      rw [Nat.sub_self] at this
      exact this
    refine ⟨e, sys_fair hr0 v3 v4 (quiet_of_restB ⟨_, hp.1⟩ v1) (cquiet_of_rest (cinv fileGood hp.2) v2), fileGood, ?_, hsame, rfl, ?_,
      ?_, ?_, ?_, exSysSession_ok, ⟨exSameSaved.length, ?_⟩, ⟨exSameSaved.length, ?_⟩, exFile_life, ?_,
      ⟨exReport, by decide, ?_⟩, hdeadB⟩
    · exact execTail_mid hr0 _ (by decide) rfl
    · simpa using v 6 (fun s => decide (s.ctl.disc = .loop [2])) (by decide) (by decide +kernel)
    · intro m hm w src hc
      obtain ⟨l, h1, h2⟩ := hlab m hm
      rw [h1] at hc; cases hc; cases h2
    · intro m hm
      obtain ⟨l, h1, h2⟩ := hlab m hm
      constructor
      · intro r hc; rw [h1] at hc; cases hc; cases h2
      · intro hc; rw [h1] at hc; cases hc; cases h2
    · rfl
    · rw [hend]
      refine ⟨a1, fun id ref i hl => ?_⟩
      have hl : (id, ref) ∈ s.ctl.list := hl
      rw [a2] at hl
      simp only [List.mem_singleton, Prod.mk.injEq] at hl
      obtain ⟨-, rfl⟩ := hl
      by_cases hi : i = 0
      · subst hi; exact .inr a4
      · exact .inl (((cinv fileGood hp.2).safe 0 (by omega)).wake.fresh i (by omega))
    · rw [hend]; show s.ctl.saver ≠ _; rw [a6]; simp
    · intro m l hl
      have hl : some (if m < exSameSaved.length then exSameSaved[m]?.getD (.ctl (.tick 1)) else .ctl (.tick 1)) = some (SLabel.ctl l) := hl
      by_cases hlt : m < exSameSaved.length
      · rw [if_pos hlt, List.getElem?_eq_getElem hlt, Option.getD_some] at hl
        injection hl with hl
        exact same_sensible l (hl ▸ List.getElem_mem hlt)
      · rw [if_neg hlt] at hl
        cases hl
        trivial
    · exact .inl ⟨0xFF, ⟨0x00, 0x00, 0x03, [], ⟨0x09, 0x2A, rfl, rfl, by decide⟩, rfl, by decide⟩, rfl⟩

end Verif.Props
