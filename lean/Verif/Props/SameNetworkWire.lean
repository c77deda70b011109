import Verif.Props.SameNetwork
import Verif.Props.System

/-
C123: with an unchanged network what the wire says is shown, from the first frame on.
-/

set_option linter.unusedSimpArgs false
set_option linter.unusedVariables false

namespace Verif.Props

open Verif.Go Verif.Model Verif.Model.Conn Verif.Spec Verif.Lemmas Verif.Lemmas.Conn Verif.Lemmas.Ctl Verif.Lemmas.EndToEnd
  Verif.Lemmas.System

variable {lv : LoopVars} {db : DB} {f : Bool} {ns : List Node} {e : Exec (sysStep lv db)}

theorem same_list (h0 : e.st 0 = sysStart f ns) (hn : ∀ m, SameNetwork ns (e.st m).ctl.hist) {b : UInt8} {ref : Nat}
    (hl : (start f ns).list.get b.toNat = some ref) (m : Nat) : (e.st m).ctl.list.get b.toNat = some ref := by
  rw [(C123_list_untouched (sys_parts h0 m).2 (hn m)).1]
  exact hl

theorem load_nDeliv : ∀ (ns : List Node) (s : CSt), (s.loadNodes ns).nDeliv = s.nDeliv
  | [], _ => rfl
  | n :: ns, s => load_nDeliv ns (s.loadNode n)

theorem report_applied_same (hf : FairSys e) (hg : GoodFile ns) (h0 : e.st 0 = sysStart f ns) (hn : ∀ m, SameNetwork ns (e.st m).ctl.hist)
    {b : UInt8} {ref : Nat} (hl : (start f ns).list.get b.toNat = some ref) (m k : Nat) (r : Report)
    (h2 : arrivalOf k (e.st m).ctl.hist = some (b, r)) :
    ∃ m', 0 ≤ m' ∧ (Sys.dead (e.st m') ∨ CEv.applied k ref r ∈ (e.st m').ctl.hist) := by
  refine sor_dead (P := fun s => CEv.applied k ref r ∈ s.ctl.hist) 0 fun ha => ?_
  obtain ⟨j, hj, h3, h4⟩ : ∃ j, 0 ≤ j ∧ arrivalOf k (e.st j).ctl.hist = none ∧
      arrivalOf k (e.st (j + 1)).ctl.hist = some (b, r) := by
    induction m with
    | zero =>
      have h1 : arrivalOf k (e.st 0).ctl.hist = none := by
        cases hx : arrivalOf k (e.st 0).ctl.hist with
        | none => rfl
        | some p =>
          have hz := C100_nothing_between h0 0
          have := ((apInv hg (sys_parts h0 0).2).arr k p.1 p.2 (arrivalOf_mem hx)).1
          rw [h0] at this
          have hd : (start f ns).nDeliv = 0 := load_nDeliv ns _
          have this : k < (start f ns).nDeliv := this
          omega
      rw [h1] at h2; cases h2
    | succ m ih =>
      cases hx : arrivalOf k (e.st m).ctl.hist with
      | none => exact ⟨m, Nat.zero_le m, hx, h2⟩
      | some p =>
        refine ih ?_
        rw [hx]
        have hnx := (ctlExec e).next m
        have : arrivalOf k (e.st (m + 1)).ctl.hist = some p := by
          split at hnx
          · have g1 := (apInv hg (sys_parts h0 (m + 1)).2).arr k p.1 p.2
            refine (g1 ?_).2
            have g2 := arrivalOf_mem hx
            exact hist_mono hnx g2
          · have : (e.st (m + 1)).ctl = (e.st m).ctl := hnx
            rw [this]; exact hx
        rw [this] at h2
        exact h2
  have hnx := (ctlExec e).next j
  have hcall : (e.st (j + 1)).ctl.deliv k = .call b r ∧ k < (e.st (j + 1)).ctl.nDeliv := by
    split at hnx
    · exact call_new hnx h3 h4
    · have : (e.st (j + 1)).ctl = (e.st j).ctl := hnx
      rw [this, h3] at h4; cases h4
  obtain ⟨m', g1, g2 | g2 | ⟨g2, -⟩⟩ := C97_report_applied_partial (ctl_fair ha hf) hg
    (f := f) (sys_parts h0 0).2 (j + 1) k ref b r hcall.2 hcall.1 (same_list h0 hn hl (j + 1))
  · exact absurd (Or.inr g2) (ha m')
  · exact ⟨m', by omega, g2⟩
  · exact absurd g2 ((C123_list_untouched (sys_parts h0 m').2 (hn m')).2.2.2.1 k)

/-- C123: if the file holds every node the stick reports, then after the last read everything comes to rest, and every report of node `b`
that was ever on the wire was applied to it, whether it came before, during or after the discovery. -/
theorem C123_all_applied (hf : FairSys e) (hg : GoodFile ns) (h0 : e.st 0 = sysStart f ns) (hn : ∀ m, SameNetwork ns (e.st m).ctl.hist) {n : Nat}
    {b : UInt8} {ref : Nat} (hl : (start f ns).list.get b.toNat = some ref) (hq : NoMoreRequests e n) (hr : NoMoreReads e n)
    {xs : List Session} (hx : sessions (connSteps e n) = xs.map Session.reads) (ho : ∀ x ∈ xs, x.Ok) :
    ∃ m, ∀ m', m ≤ m' → Sys.dead (e.st m') ∨ Together lv db f ns xs (e.st m').conn (e.st m').ctl ∧
      AllApplied b (e.st m').ctl ∧ (e.st m').ctl.list.get b.toNat = some ref := by
  by_cases hdead : ∃ m, Sys.dead (e.st m)
  · obtain ⟨m, hm⟩ := hdead
    exact ⟨m, fun m' h => .inl (dead_stays h hm)⟩
  have ha : ∀ m, ¬ Sys.dead (e.st m) := fun m h => hdead ⟨m, h⟩
  have ha1 : ∀ m, (e.st m).conn.crashed = none := fun m =>
    Classical.byContradiction fun h => ha m (.inl h)
  -- the reader comes to rest
  obtain ⟨m1, g1, g2⟩ := C99_reader_returns (conn_fair ha hf) ⟨_, (sys_parts h0 0).1⟩ n (by
    intro m hm w src hc
    refine hq m hm w src ?_
    revert hc
    simp only [connExec]
    cases hlm : e.lab m with
    | none => intro hc; cases hc
    | some l => cases l <;> intro hc <;> cases hc; rfl)
  have hrest : ∀ m, m1 ≤ m → (e.st m).conn.reader = .read ∨ (e.st m).conn.reader = .down := by
    intro m hm
    induction hm with
    | refl => exact g2.resolve_left fun h => h (ha1 m1)
    | step hm ih =>
      next m =>
      have hnx := (connExec e).next m
      obtain ⟨h1, h2⟩ := hr m (Nat.le_trans g1 hm)
      cases hlm : e.lab m with
      | none =>
        have hlab : (connExec e).lab m = none := by simp [connExec, hlm, connLab]
        rw [hlab] at hnx
        have : (e.st (m + 1)).conn = (e.st m).conn := hnx
        rw [this]; exact ih
      | some l =>
        cases l with
        | ctl l =>
          have hlab : (connExec e).lab m = none := by simp [connExec, hlm, connLab]
          rw [hlab] at hnx
          have : (e.st (m + 1)).conn = (e.st m).conn := hnx
          rw [this]; exact ih
        | connected ok =>
          have hlab : (connExec e).lab m = none := by simp [connExec, hlm, connLab]
          rw [hlab] at hnx
          have : (e.st (m + 1)).conn = (e.st m).conn := hnx
          rw [this]; exact ih
        | conn l =>
          have hlab : (connExec e).lab m = some l := by simp [connExec, hlm, connLab]
          rw [hlab] at hnx
          exact rest_keeps hnx ih (fun r hc => h1 r (by rw [hlm, hc])) (fun hc => h2 (by rw [hlm, hc]))
  have htog : ∀ m, m1 ≤ m → Together lv db f ns xs (e.st m).conn (e.st m).ctl := fun m hm =>
    ⟨⟨connSteps e m, (sys_parts h0 m).1, by rw [sessions_stay hr m (by omega)]; exact hx⟩, ha1 m, hrest m hm, ho, hg,
      (sys_parts h0 m).2, C100_nothing_between h0 m⟩
  -- the deliveries come to an end
  let N := m1
  have hev : ∃ M, N ≤ M ∧ ∀ k, k < (e.st N).ctl.nDeliv → ∀ r, arrivalOf k (e.st N).ctl.hist = some (b, r) →
      timesApplied k (e.st M).ctl.hist ≠ 0 := by
    refine all_below (fun k m => ∀ r, arrivalOf k (e.st N).ctl.hist = some (b, r) → timesApplied k (e.st m).ctl.hist ≠ 0)
      ?_ N _ fun k hk => ?_
    · intro k n m h hp r hr
      obtain ⟨rf, r', hm⟩ := applied_of_times (hp r hr)
      exact mem_times (hist_mono_sys h hm)
    · cases hx : arrivalOf k (e.st N).ctl.hist with
      | none => exact ⟨N, Nat.le_refl N, fun r hr => by cases hr⟩
      | some p =>
        obtain ⟨b', r⟩ := p
        by_cases hbb : b' = b
        · subst hbb
          obtain ⟨m', h1, h2⟩ := report_applied_same hf hg h0 hn hl N k r hx
          exact ⟨m' + N, by omega, fun r' _ => mem_times (hist_mono_sys (n := m') (by omega) (h2.resolve_left (ha m')))⟩
        · refine ⟨N, Nat.le_refl N, fun r' hr' => ?_⟩
          simp only [Option.some.injEq, Prod.mk.injEq] at hr'
          exact absurd hr'.1 hbb
  obtain ⟨M, hM, hap⟩ := hev
  refine ⟨M, fun m hm => .inr ⟨htog m (by omega), fun k r hk => ?_, same_list h0 hn hl m⟩⟩
  -- nothing has arrived since
  have hsame : ∀ m, N ≤ m → arrivals (e.st m).ctl.hist = arrivals (e.st N).ctl.hist := by
    intro m hm
    obtain ⟨l1, q1, q2⟩ := (htog m (by omega)).conn
    obtain ⟨l2, q3, q4⟩ := (htog N (by omega)).conn
    rw [(htog m (by omega)).joined, (htog N (by omega)).joined,
      callbacks_said q1 (ha1 m) (hrest m (by omega)) q2 ho, callbacks_said q3 (ha1 N) (hrest N (by omega)) q4 ho]
  have hkeep : ∀ m, N ≤ m → arrivalOf k (e.st m).ctl.hist = arrivalOf k (e.st N).ctl.hist := by
    intro m hm
    induction hm with
    | refl => rfl
    | step hm ih =>
      next m =>
      rw [← ih]
      have hnx := (ctlExec e).next m
      split at hnx
      · next l hlab =>
        refine arrival_keeps hnx k fun id r hc => ?_
        subst hc
        have q := arrivals_step hnx
        have q1 : arrivals (e.st (m + 1)).ctl.hist = arrivals (e.st m).ctl.hist ++ [(id, r)] := q
        rw [hsame (m + 1) (Nat.le_succ_of_le hm), hsame m hm] at q1
        have := congrArg List.length q1
        simp at this
      · have : (e.st (m + 1)).ctl = (e.st m).ctl := hnx
        rw [this]
  have hkN : arrivalOf k (e.st N).ctl.hist = some (b, r) := by rw [← hkeep m (by omega)]; exact hk
  have h1 := hap k ((apInv hg (sys_parts h0 N).2).arr k b r (arrivalOf_mem hkN)).1 r hkN
  obtain ⟨rf, r', hmm⟩ := applied_of_times h1
  have h2 := mem_times (hist_mono_sys hm hmm)
  have h3 := (onceInv hg (sys_parts h0 m).2).most k
  omega

/-- C123: then the node shows in the end what its frames said, if those that say whether it is on agree. -/
theorem C123_on_shown (hf : FairSys e) (hg : GoodFile ns) (h0 : e.st 0 = sysStart f ns) (hn : ∀ m, SameNetwork ns (e.st m).ctl.hist) {n : Nat}
    {b : UInt8} {ref : Nat} (hl : (start f ns).list.get b.toNat = some ref) (hq : NoMoreRequests e n) (hr : NoMoreReads e n)
    {xs : List Session} (hx : sessions (connSteps e n) = xs.map Session.reads) (ho : ∀ x ∈ xs, x.Ok) {x : Bool}
    (hsome : ∃ fr ∈ onWire xs, WireOn fr b x) (hagree : ∀ fr ∈ onWire xs, ∀ y, WireOn fr b y → y = x) :
    ∃ m, ∀ m', m ≤ m' → Sys.dead (e.st m') ∨ boolState ((e.st m').ctl.heap ref).node "on".toList = some x := by
  obtain ⟨m, h⟩ := C123_all_applied hf hg h0 hn hl hq hr hx ho
  exact ⟨m, fun m' hm => (h m' hm).imp_right fun ⟨h1, h2, h3⟩ => C89_wire_on h1 h3 h2 hsome hagree⟩

/-- C123: likewise for the level. -/
theorem C123_level_shown (hf : FairSys e) (hg : GoodFile ns) (h0 : e.st 0 = sysStart f ns) (hn : ∀ m, SameNetwork ns (e.st m).ctl.hist) {n : Nat}
    {b : UInt8} {ref : Nat} (hl : (start f ns).list.get b.toNat = some ref) (hq : NoMoreRequests e n) (hr : NoMoreReads e n)
    {xs : List Session} (hx : sessions (connSteps e n) = xs.map Session.reads) (ho : ∀ x ∈ xs, x.Ok) {v : Nat}
    (hsome : ∃ fr ∈ onWire xs, WireLevel fr b v) (hagree : ∀ fr ∈ onWire xs, ∀ w, WireLevel fr b w → w = v) :
    ∃ m, ∀ m', m ≤ m' → Sys.dead (e.st m') ∨ floatState ((e.st m').ctl.heap ref).node "level".toList = some (v : Rat) := by
  obtain ⟨m, h⟩ := C123_all_applied hf hg h0 hn hl hq hr hx ho
  exact ⟨m, fun m' hm => (h m' hm).imp_right fun ⟨h1, h2, h3⟩ => C89_wire_level h1 h3 h2 hsome hagree⟩

/-- C123: and for every other state. -/
theorem C123_state_shown (hf : FairSys e) (hg : GoodFile ns) (h0 : e.st 0 = sysStart f ns) (hn : ∀ m, SameNetwork ns (e.st m).ctl.hist) {n : Nat}
    {b : UInt8} {ref : Nat} (hl : (start f ns).list.get b.toNat = some ref) (hq : NoMoreRequests e n) (hr : NoMoreReads e n)
    {xs : List Session} (hx : sessions (connSteps e n) = xs.map Session.reads) (ho : ∀ x ∈ xs, x.Ok) {key : List Char}
    (hk : key ≠ "alarm".toList) (hk' : key ≠ "alarmLastType".toList) {v : Rat}
    (hsome : ∃ fr ∈ onWire xs, ∃ r, IsReport fr b r ∧ saysFloat r key = some v)
    (hagree : ∀ fr ∈ onWire xs, ∀ r, IsReport fr b r → saysFloat r key = some v ∨ saysFloat r key = none) :
    ∃ m, ∀ m', m ≤ m' → Sys.dead (e.st m') ∨ floatState ((e.st m').ctl.heap ref).node key = some v := by
  obtain ⟨m, h⟩ := C123_all_applied hf hg h0 hn hl hq hr hx ho
  exact ⟨m, fun m' hm => (h m' hm).imp_right fun ⟨h1, h2, h3⟩ => C89_agreed_float h1 h3 h2 hk hk' hsome hagree⟩

/-! ### A case -/

/-- The file holds node 2. The stick reports node 2; then, before the discovery has gone through the nodes, a frame "on" of node 2 is read and
worked off. -/
def exSame : List SLabel :=
  [.conn (.connect true), .connected true, .ctl .startDisc, .ctl (.disc (.nodes [true, true])), .conn (.reader (.read ⟨exReport, true, 5⟩))] ++
    exWork.map .conn ++ [.ctl (.deliver 0), .ctl d, .ctl (.deliver 0), .ctl d, .ctl (.deliver 0), .ctl d]

/-- A fair execution that meets the hypotheses: at moment 5 the frame has been read and the discovery has not yet looked at node 2. -/
example : ∃ e : Exec (sysStep .perIteration demoDB), FairSys e ∧ GoodFile [fileNode 2] ∧ e.st 0 = sysStart false [fileNode 2] ∧
    (∀ m, SameNetwork [fileNode 2] (e.st m).ctl.hist) ∧ (start false [fileNode 2]).list.get (2 : UInt8).toNat = some 0 ∧
    (e.st 5).ctl.disc = .loop [2] ∧ NoMoreRequests e 5 ∧ NoMoreReads e 5 ∧ callbacks (e.st 5).conn = [] ∧
    sessions (connSteps e 5) = [exSysSession, []].map Session.reads ∧ (∀ x ∈ [exSysSession, []], x.Ok) ∧
    (∃ fr ∈ onWire [exSysSession, []], WireOn fr 2 true) ∧ (∀ n, ¬ Sys.dead (e.st n)) := by
  have hv : (runSteps (sysStep .perIteration demoDB) (sysStart false [fileNode 2]) exSame).map (fun s =>
      restB s.conn && cRestB s.ctl && s.conn.crashed.isNone && s.ctl.crashed.isNone && onlyReply [true, true] s.ctl.hist) = some true := by
    decide +kernel
  cases hr : runSteps (sysStep .perIteration demoDB) (sysStart false [fileNode 2]) exSame with
  | none => rw [hr] at hv; cases hv
  | some s =>
    have hr0 : runSteps (sysStep .perIteration demoDB) (sysStart false [fileNode 2]) exSame = some (sysTail s 0) := hr
    rw [hr] at hv
    simp only [Option.map_some, Option.some.injEq, Bool.and_eq_true, Option.isNone_iff_eq_none] at hv
    obtain ⟨⟨⟨⟨v1, v2⟩, v3⟩, v4⟩, v5⟩ := hv
    let e0 := execFin (sysStep .perIteration demoDB) (sysStart false [fileNode 2]) exSame s hr none (by simp)
    have hst : e0.st exSame.length = s := execFin_end _ _ (Nat.le_refl _)
    have hp := sys_parts (e := e0) (f := false) (ns := [fileNode 2]) (by simp [e0, execFin, runSteps]) exSame.length
    rw [hst] at hp
    let e := execTail (sysStep .perIteration demoDB) (sysStart false [fileNode 2]) exSame (sysTail s) (.ctl (.tick 1)) hr0 (sysTail_step v3 v4)
    have v : ∀ n (p : Sys → Bool), n < exSame.length →
        (runSteps (sysStep .perIteration demoDB) (sysStart false [fileNode 2]) (exSame.take n)).map p = some true → p (e.st n) = true := by
      intro n p hn hp
      cases hr : runSteps (sysStep .perIteration demoDB) (sysStart false [fileNode 2]) (exSame.take n) with
      | none => rw [hr] at hp; cases hp
      | some t => rw [hr] at hp; rw [show e.st n = t from execTail_mid hr0 _ hn hr]; simpa using hp
    have hlab : ∀ m, 5 ≤ m → ∃ l, e.lab m = some l ∧ inert l = true := by
      intro m hm
      refine ⟨_, rfl, ?_⟩
      by_cases hlt : m < exSame.length
      · have hall : ((exSame.drop 5).all inert) = true := by decide +kernel
        rw [List.all_eq_true] at hall
        rw [if_pos hlt, List.getElem?_eq_getElem hlt, Option.getD_some]
        refine hall _ (List.mem_of_getElem? (i := m - 5) ?_)
        rw [List.getElem?_drop, show 5 + (m - 5) = m by omega, List.getElem?_eq_getElem hlt]
      · rw [if_neg hlt]; rfl
    have hdeadB : ∀ n, ¬ Sys.dead (e.st n) := by
      intro n hd
      have h1 := dead_stays (e := e) (n := n) (m := n + exSame.length) (by omega) hd
      rw [show e.st (n + exSame.length) = _ from execTail_end hr0 _ (by omega)] at h1
      rcases h1 with h1 | h1
      · exact h1 v3
      · exact h1 v4
    have hsame : ∀ m, SameNetwork [fileNode 2] (e.st m).ctl.hist := by
      intro m bm hm
      have h1 : CEv.reply bm ∈ (e.st (m + exSame.length)).ctl.hist := hist_mono_sys (by omega) hm
      rw [show e.st (m + exSame.length) = _ from execTail_end hr0 _ (by omega)] at h1
      refine same_onlyReply (bm := [true, true]) (h := s.ctl.hist) v5 ?_ bm h1
      intro i hi hb
      rcases i with _ | _ | i
      · cases hi
      · exact ⟨_, List.mem_singleton.2 rfl, rfl⟩
      · simp at hb
    refine ⟨e, sys_fair hr0 v3 v4 (quiet_of_restB ⟨_, hp.1⟩ v1) (cquiet_of_rest (cinv fileGood hp.2) v2), fileGood, ?_, hsame, rfl, ?_,
      ?_, ?_, ?_, ?_, exSysSession_ok, ⟨exReport, by decide, ?_⟩, hdeadB⟩
    · exact execTail_mid hr0 _ (by decide) rfl
    · simpa using v 5 (fun s => decide (s.ctl.disc = .loop [2])) (by decide) (by decide +kernel)
    · intro m hm w src hc
      obtain ⟨l, h1, h2⟩ := hlab m hm
      rw [h1] at hc; cases hc; cases h2
    · intro m hm
      obtain ⟨l, h1, h2⟩ := hlab m hm
      constructor
      · intro r hc; rw [h1] at hc; cases hc; cases h2
      · intro hc; rw [h1] at hc; cases hc; cases h2
    · simpa using v 5 (fun s => decide (callbacks s.conn = [])) (by decide) (by decide +kernel)
    · rfl
    · exact .inl ⟨0xFF, ⟨0x00, 0x00, 0x03, [], ⟨0x09, 0x2A, rfl, rfl, by decide⟩, rfl, by decide⟩, rfl⟩

end Verif.Props
