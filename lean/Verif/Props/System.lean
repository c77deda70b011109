import Verif.Lemmas.System

/-
C100: from the bytes on the wire to the states of the nodes, in the whole process, without assuming that anything has
been delivered: it is bound to be.
-/

set_option linter.unusedSimpArgs false
set_option linter.unusedVariables false

namespace Verif.Props

open Verif.Go Verif.Model Verif.Model.Conn Verif.Spec Verif.Lemmas Verif.Lemmas.Conn Verif.Lemmas.Ctl Verif.Lemmas.EndToEnd
  Verif.Lemmas.System

variable {lv : LoopVars} {db : DB} {f : Bool} {ns : List Node} {e : Exec (sysStep lv db)}

/-- The process at the start: the file is loaded, the port not yet opened. -/
def sysStart (f : Bool) (ns : List Node) : Sys := ⟨init, start f ns, none⟩

/-- The parts of a process are a connection and a controller as studied on their own. -/
theorem sys_parts (h0 : e.st 0 = sysStart f ns) (n : Nat) :
    run lv init (connSteps e n) = some (e.st n).conn ∧ CReach db f ns (e.st n).ctl := by
  constructor
  · rw [connSteps_before]
    have := exec_run (e := connExec e) n
    have h1 : (connExec e).st 0 = init := by show (e.st 0).conn = init; rw [h0]; rfl
    rw [h1] at this
    exact this
  · exact cexec_reach (e := ctlExec e) (f := f) (ns := ns)
      (by show CReach db f ns (e.st 0).ctl; rw [h0]; exact ⟨[], rfl⟩) n

/-- C100: at every moment the reports that have reached the controller are those the reader has handed out, in the
same order. -/
theorem C100_nothing_between (h0 : e.st 0 = sysStart f ns) (n : Nat) :
    arrivals (e.st n).ctl.hist = callbacks (e.st n).conn := by
  refine exec_keep e (Q := fun s => arrivals s.ctl.hist = callbacks s.conn) (fun s l s' h hs => joined_step hs h) ?_ n
    (Nat.zero_le n)
  rw [h0]
  show arrivals ((newController f).loadNodes ns).hist = []
  have : ∀ (ms : List Node) (t : CSt), arrivals t.hist = [] → arrivals (t.loadNodes ms).hist = [] := by
    intro ms
    induction ms with
    | nil => intro t h; exact h
    | cons m ms ih =>
      intro t h
      refine ih _ ?_
      simp [CSt.loadNode, CSt.push, arrivals_cons, h]
  exact this ns _ rfl

theorem done_stays_sys {n : Nat} (hd : (e.st n).ctl.disc = .done) : ∀ m, n ≤ m → (e.st m).ctl.disc = .done :=
  done_stays (e := ctlExec e) n hd

theorem list_stays_sys {n : Nat} (hd : (e.st n).ctl.disc = .done) (m : Nat) (hm : n ≤ m) :
    (e.st m).ctl.list = (e.st n).ctl.list := by
  induction hm with
  | refl => rfl
  | step hm ih =>
    next m =>
    rw [← ih]
    have hnx := (ctlExec e).next m
    have hdm := done_stays_sys hd m hm
    split at hnx
    · exact list_keeps hnx hdm
    · exact congrArg CSt.list hnx

/-- C100: after the discovery every report of a listed node that the reader hands out is applied to that node. -/
theorem C100_report_applied (hf : FairSys e) (hg : GoodFile ns) (h0 : e.st 0 = sysStart f ns) (n : Nat)
    (hd : (e.st n).ctl.disc = .done) {b : UInt8} {ref : Nat} (hl : (e.st n).ctl.list.get b.toNat = some ref)
    (m k : Nat) (hm : n ≤ m) (r : Report) (h1 : arrivalOf k (e.st n).ctl.hist = none)
    (h2 : arrivalOf k (e.st m).ctl.hist = some (b, r)) :
    ∃ m', n ≤ m' ∧ (Sys.dead (e.st m') ∨ CEv.applied k ref r ∈ (e.st m').ctl.hist) := by
  refine sor_dead (P := fun s => CEv.applied k ref r ∈ s.ctl.hist) n fun ha => ?_
  obtain ⟨j, hj, h3, h4⟩ : ∃ j, n ≤ j ∧ arrivalOf k (e.st j).ctl.hist = none ∧
      arrivalOf k (e.st (j + 1)).ctl.hist = some (b, r) := by
    clear hd hl
    induction hm with
    | refl => rw [h1] at h2; cases h2
    | step hm ih =>
      next m =>
      cases hx : arrivalOf k (e.st m).ctl.hist with
      | none => exact ⟨m, hm, hx, h2⟩
      | some p =>
        refine ih ?_
        rw [hx]
        have hnx := (ctlExec e).next m
        have : arrivalOf k (e.st (m + 1)).ctl.hist = some p := by
          split at hnx
          · have g1 := (apInv hg (sys_parts h0 (m + 1)).2).arr k p.1 p.2
            refine (g1 ?_).2
            have g2 := arrivalOf_mem hx
            exact hist_mono hnx g2
          · have : (e.st (m + 1)).ctl = (e.st m).ctl := hnx
            rw [this]; exact hx
        rw [this] at h2
        exact h2
  have hnx := (ctlExec e).next j
  have hcall : (e.st (j + 1)).ctl.deliv k = .call b r ∧ k < (e.st (j + 1)).ctl.nDeliv := by
    split at hnx
    · exact call_new hnx h3 h4
    · have : (e.st (j + 1)).ctl = (e.st j).ctl := hnx
      rw [this, h3] at h4; cases h4
  have hlist : (e.st (j + 1)).ctl.list.get b.toNat = some ref := by rw [list_stays_sys hd (j + 1) (by omega)]; exact hl
  obtain ⟨m', g1, g2 | g2 | ⟨-, m2, g2, g3⟩⟩ := C97_report_applied_partial (ctl_fair ha hf) hg
    (f := f) (sys_parts h0 0).2 (j + 1) k ref b r hcall.2 hcall.1 hlist
  · exact absurd (Or.inr g2) (ha m')
  · exact ⟨m', by omega, g2⟩
  · have : (e.st m2).ctl.disc = .done := done_stays_sys hd m2 (by omega)
    have g3 : (e.st m2).ctl.disc.locks = true := g3
    rw [this] at g3; cases g3

theorem hist_mono_sys {n m : Nat} (h : n ≤ m) {x : CEv} (hx : x ∈ (e.st n).ctl.hist) : x ∈ (e.st m).ctl.hist := by
  induction h with
  | refl => exact hx
  | step h ih =>
    next m =>
    have hnx := (ctlExec e).next m
    split at hnx
    · exact hist_mono hnx ih
    · have : (e.st (m + 1)).ctl = (e.st m).ctl := hnx
      rw [this]; exact ih

/-- Finitely many things that come about and stay come about together. -/
theorem all_below (P : Nat → Nat → Prop) (hst : ∀ k n m, n ≤ m → P k n → P k m) (n : Nat) :
    ∀ j, (∀ k, k < j → ∃ m, n ≤ m ∧ P k m) → ∃ m, n ≤ m ∧ ∀ k, k < j → P k m
  | 0, _ => ⟨n, Nat.le_refl n, fun k hk => absurd hk (Nat.not_lt_zero k)⟩
  | j + 1, h => by
    obtain ⟨m1, h1, h2⟩ := all_below P hst n j fun k hk => h k (by omega)
    obtain ⟨m2, h3, h4⟩ := h j (by omega)
    refine ⟨m1 + m2, by omega, fun k hk => ?_⟩
    by_cases hkj : k = j
    · subst hkj; exact hst _ _ _ (by omega) h4
    · exact hst _ _ _ (by omega) (h2 k (by omega))

theorem sessions_stay {n : Nat} (hr : NoMoreReads e n) (m : Nat) (hm : n ≤ m) :
    sessions (connSteps e m) = sessions (connSteps e n) := by
  induction hm with
  | refl => rfl
  | step hm ih =>
    next m =>
    rw [← ih, connSteps_before, connSteps_before, before_succ]
    obtain ⟨h1, h2⟩ := hr m hm
    cases hl : e.lab m with
    | none => simp [connExec, hl, connLab]
    | some l =>
      cases l with
      | ctl l => simp [connExec, hl, connLab]
      | connected ok => simp [connExec, hl, connLab]
      | conn l =>
        simp only [connExec, hl, connLab, Option.toList, sessions, List.foldl_append, List.foldl_cons, List.foldl_nil]
        refine session_keeps (fun r hc => h1 r (by rw [hl, hc])) (fun hc => h2 (by rw [hl, hc]))

/-- C100: after the last read everything comes to rest: the connection and the controller have worked off the wire
together and every report of node `b` was applied to it. -/
theorem C100_all_applied (hf : FairSys e) (hg : GoodFile ns) (h0 : e.st 0 = sysStart f ns) {n0 n : Nat}
    (hd : (e.st n0).ctl.disc = .done) {b : UInt8} {ref : Nat} (hl : (e.st n0).ctl.list.get b.toNat = some ref)
    (hb : AllApplied b (e.st n0).ctl) (hq : NoMoreRequests e n) (hr : NoMoreReads e n) {xs : List Session}
    (hx : sessions (connSteps e n) = xs.map Session.reads) (ho : ∀ x ∈ xs, x.Ok) :
    ∃ m, ∀ m', m ≤ m' → Sys.dead (e.st m') ∨ Together lv db f ns xs (e.st m').conn (e.st m').ctl ∧
      AllApplied b (e.st m').ctl ∧ (e.st m').ctl.list.get b.toNat = some ref := by
  by_cases hdead : ∃ m, Sys.dead (e.st m)
  · obtain ⟨m, hm⟩ := hdead
    exact ⟨m, fun m' h => .inl (dead_stays h hm)⟩
  have ha : ∀ m, ¬ Sys.dead (e.st m) := fun m h => hdead ⟨m, h⟩
  have ha1 : ∀ m, (e.st m).conn.crashed = none := fun m =>
    Classical.byContradiction fun h => ha m (.inl h)
  -- the reader comes to rest
  obtain ⟨m1, g1, g2⟩ := C99_reader_returns (conn_fair ha hf) ⟨_, (sys_parts h0 0).1⟩ n (by
    intro m hm w src hc
    refine hq m hm w src ?_
    revert hc
    simp only [connExec]
    cases hlm : e.lab m with
    | none => intro hc; cases hc
    | some l => cases l <;> intro hc <;> cases hc; rfl)
  have hrest : ∀ m, m1 ≤ m → (e.st m).conn.reader = .read ∨ (e.st m).conn.reader = .down := by
    intro m hm
    induction hm with
    | refl => exact g2.resolve_left fun h => h (ha1 m1)
    | step hm ih =>
      next m =>
      have hnx := (connExec e).next m
      obtain ⟨h1, h2⟩ := hr m (Nat.le_trans g1 hm)
      cases hlm : e.lab m with
      | none =>
        have hlab : (connExec e).lab m = none := by simp [connExec, hlm, connLab]
        rw [hlab] at hnx
        have : (e.st (m + 1)).conn = (e.st m).conn := hnx
        rw [this]; exact ih
      | some l =>
        cases l with
        | ctl l =>
          have hlab : (connExec e).lab m = none := by simp [connExec, hlm, connLab]
          rw [hlab] at hnx
          have : (e.st (m + 1)).conn = (e.st m).conn := hnx
          rw [this]; exact ih
        | connected ok =>
          have hlab : (connExec e).lab m = none := by simp [connExec, hlm, connLab]
          rw [hlab] at hnx
          have : (e.st (m + 1)).conn = (e.st m).conn := hnx
          rw [this]; exact ih
        | conn l =>
          have hlab : (connExec e).lab m = some l := by simp [connExec, hlm, connLab]
          rw [hlab] at hnx
          exact rest_keeps hnx ih (fun r hc => h1 r (by rw [hlm, hc])) (fun hc => h2 (by rw [hlm, hc]))
  have htog : ∀ m, m1 ≤ m → Together lv db f ns xs (e.st m).conn (e.st m).ctl := fun m hm =>
    ⟨⟨connSteps e m, (sys_parts h0 m).1, by rw [sessions_stay hr m (by omega)]; exact hx⟩, ha1 m, hrest m hm, ho, hg,
      (sys_parts h0 m).2, C100_nothing_between h0 m⟩
  -- the deliveries come to an end
  let N := m1 + n0
  have hev : ∃ M, N ≤ M ∧ ∀ k, k < (e.st N).ctl.nDeliv → ∀ r, arrivalOf k (e.st N).ctl.hist = some (b, r) →
      timesApplied k (e.st M).ctl.hist ≠ 0 := by
    refine all_below (fun k m => ∀ r, arrivalOf k (e.st N).ctl.hist = some (b, r) → timesApplied k (e.st m).ctl.hist ≠ 0)
      ?_ N _ fun k hk => ?_
    · intro k n m h hp r hr
      obtain ⟨rf, r', hm⟩ := applied_of_times (hp r hr)
      exact mem_times (hist_mono_sys h hm)
    · cases hx : arrivalOf k (e.st N).ctl.hist with
      | none => exact ⟨N, Nat.le_refl N, fun r hr => by cases hr⟩
      | some p =>
        obtain ⟨b', r⟩ := p
        by_cases hbb : b' = b
        · subst hbb
          cases hy : arrivalOf k (e.st n0).ctl.hist with
          | none =>
            obtain ⟨m', h1, h2⟩ := C100_report_applied hf hg h0 n0 hd hl N k (by omega) r hy hx
            refine ⟨m' + N, by omega, fun r' _ => mem_times (hist_mono_sys (n := m') (by omega) (h2.resolve_left (ha m')))⟩
          | some p =>
            have hp : arrivalOf k (e.st N).ctl.hist = some p :=
              ((apInv hg (sys_parts h0 N).2).arr k p.1 p.2 (hist_mono_sys (n := n0) (by omega) (arrivalOf_mem hy))).2
            rw [hx] at hp
            cases hp
            have h1 := hb k r hy
            obtain ⟨rf, r', hm⟩ := applied_of_times (k := k) (h := (e.st n0).ctl.hist) (by omega)
            exact ⟨N, Nat.le_refl N, fun _ _ => mem_times (hist_mono_sys (n := n0) (by omega) hm)⟩
        · refine ⟨N, Nat.le_refl N, fun r' hr' => ?_⟩
          simp only [Option.some.injEq, Prod.mk.injEq] at hr'
          exact absurd hr'.1 hbb
  obtain ⟨M, hM, hap⟩ := hev
  refine ⟨M, fun m hm => .inr ⟨htog m (by omega), fun k r hk => ?_, by rw [list_stays_sys hd m (by omega)]; exact hl⟩⟩
  -- nothing has arrived since
  have hsame : ∀ m, N ≤ m → arrivals (e.st m).ctl.hist = arrivals (e.st N).ctl.hist := by
    intro m hm
    obtain ⟨l1, q1, q2⟩ := (htog m (by omega)).conn
    obtain ⟨l2, q3, q4⟩ := (htog N (by omega)).conn
    rw [(htog m (by omega)).joined, (htog N (by omega)).joined,
      callbacks_said q1 (ha1 m) (hrest m (by omega)) q2 ho, callbacks_said q3 (ha1 N) (hrest N (by omega)) q4 ho]
  have hkeep : ∀ m, N ≤ m → arrivalOf k (e.st m).ctl.hist = arrivalOf k (e.st N).ctl.hist := by
    intro m hm
    induction hm with
    | refl => rfl
    | step hm ih =>
      next m =>
      rw [← ih]
      have hnx := (ctlExec e).next m
      split at hnx
      · next l hlab =>
        refine arrival_keeps hnx k fun id r hc => ?_
        subst hc
        have q := arrivals_step hnx
        have q1 : arrivals (e.st (m + 1)).ctl.hist = arrivals (e.st m).ctl.hist ++ [(id, r)] := q
        rw [hsame (m + 1) (Nat.le_succ_of_le hm), hsame m hm] at q1
        have := congrArg List.length q1
        simp at this
      · have : (e.st (m + 1)).ctl = (e.st m).ctl := hnx
        rw [this]
  have hkN : arrivalOf k (e.st N).ctl.hist = some (b, r) := by rw [← hkeep m (by omega)]; exact hk
  have h1 := hap k ((apInv hg (sys_parts h0 N).2).arr k b r (arrivalOf_mem hkN)).1 r hkN
  obtain ⟨rf, r', hmm⟩ := applied_of_times h1
  have h2 := mem_times (hist_mono_sys hm hmm)
  have h3 := (onceInv hg (sys_parts h0 m).2).most k
  omega

/-- C100: what the wire says the node shows, in the end and from then on: if all frames of node `b` that say whether it
is on agree, and there is one. (Frames that disagree: see C46 and `C89_last_bool_partial`.) -/
theorem C100_on_shown (hf : FairSys e) (hg : GoodFile ns) (h0 : e.st 0 = sysStart f ns) {n0 n : Nat}
    (hd : (e.st n0).ctl.disc = .done) {b : UInt8} {ref : Nat} (hl : (e.st n0).ctl.list.get b.toNat = some ref)
    (hb : AllApplied b (e.st n0).ctl) (hq : NoMoreRequests e n) (hr : NoMoreReads e n) {xs : List Session}
    (hx : sessions (connSteps e n) = xs.map Session.reads) (ho : ∀ x ∈ xs, x.Ok) {x : Bool}
    (hsome : ∃ fr ∈ onWire xs, WireOn fr b x) (hagree : ∀ fr ∈ onWire xs, ∀ y, WireOn fr b y → y = x) :
    ∃ m, ∀ m', m ≤ m' → Sys.dead (e.st m') ∨ boolState ((e.st m').ctl.heap ref).node "on".toList = some x := by
  obtain ⟨m, h⟩ := C100_all_applied hf hg h0 hd hl hb hq hr hx ho
  exact ⟨m, fun m' hm => (h m' hm).imp_right fun ⟨h1, h2, h3⟩ => C89_wire_on h1 h3 h2 hsome hagree⟩

/-- C100: likewise for the level. -/
theorem C100_level_shown (hf : FairSys e) (hg : GoodFile ns) (h0 : e.st 0 = sysStart f ns) {n0 n : Nat}
    (hd : (e.st n0).ctl.disc = .done) {b : UInt8} {ref : Nat} (hl : (e.st n0).ctl.list.get b.toNat = some ref)
    (hb : AllApplied b (e.st n0).ctl) (hq : NoMoreRequests e n) (hr : NoMoreReads e n) {xs : List Session}
    (hx : sessions (connSteps e n) = xs.map Session.reads) (ho : ∀ x ∈ xs, x.Ok) {v : Nat}
    (hsome : ∃ fr ∈ onWire xs, WireLevel fr b v) (hagree : ∀ fr ∈ onWire xs, ∀ w, WireLevel fr b w → w = v) :
    ∃ m, ∀ m', m ≤ m' → Sys.dead (e.st m') ∨ floatState ((e.st m').ctl.heap ref).node "level".toList = some (v : Rat) := by
  obtain ⟨m, h⟩ := C100_all_applied hf hg h0 hd hl hb hq hr hx ho
  exact ⟨m, fun m' hm => (h m' hm).imp_right fun ⟨h1, h2, h3⟩ => C89_wire_level h1 h3 h2 hsome hagree⟩

/-- C100: and for every other state, in terms of the reports the frames carry. -/
theorem C100_state_shown (hf : FairSys e) (hg : GoodFile ns) (h0 : e.st 0 = sysStart f ns) {n0 n : Nat}
    (hd : (e.st n0).ctl.disc = .done) {b : UInt8} {ref : Nat} (hl : (e.st n0).ctl.list.get b.toNat = some ref)
    (hb : AllApplied b (e.st n0).ctl) (hq : NoMoreRequests e n) (hr : NoMoreReads e n) {xs : List Session}
    (hx : sessions (connSteps e n) = xs.map Session.reads) (ho : ∀ x ∈ xs, x.Ok) {key : List Char}
    (hk : key ≠ "alarm".toList) (hk' : key ≠ "alarmLastType".toList) {v : Rat}
    (hsome : ∃ fr ∈ onWire xs, ∃ r, IsReport fr b r ∧ saysFloat r key = some v)
    (hagree : ∀ fr ∈ onWire xs, ∀ r, IsReport fr b r → saysFloat r key = some v ∨ saysFloat r key = none) :
    ∃ m, ∀ m', m ≤ m' → Sys.dead (e.st m') ∨ floatState ((e.st m').ctl.heap ref).node key = some v := by
  obtain ⟨m, h⟩ := C100_all_applied hf hg h0 hd hl hb hq hr hx ho
  exact ⟨m, fun m' hm => (h m' hm).imp_right fun ⟨h1, h2, h3⟩ => C89_agreed_float h1 h3 h2 hk hk' hsome hagree⟩

/-- C100: when `Connect` returned an error nothing is ever discovered or saved, although the port may be opened later
and reports go on changing the nodes from the file: the list keeps exactly the nodes of the file. -/
theorem C100_failed_connect (h0 : e.st 0 = sysStart f ns) (n : Nat) (hr : (e.st n).result ≠ some true) :
    (e.st n).ctl.list = (start f ns).list ∧ (e.st n).ctl.disc = .absent ∧ ∀ t, CEv.save t ∉ (e.st n).ctl.hist := by
  have key : ∀ n, (e.st n).result = some true ∨ Unstarted (start f ns) (e.st n).ctl := by
    intro n
    refine exec_keep e (Q := fun s => s.result = some true ∨ Unstarted (start f ns) s.ctl) (fun s l s' hq hs => ?_) ?_ n
      (Nat.zero_le n)
    · have h2 := ctl_part hs
      unfold sysStep at hs
      split at hs
      · cases hs
      cases l with
      | conn l =>
        simp only [Option.bind_eq_some_iff] at hs
        obtain ⟨c, hc, hs⟩ := hs
        have hres : s'.result = s.result := by
          split at hs
          · rw [Option.map_eq_some_iff] at hs; obtain ⟨t, -, rfl⟩ := hs; rfl
          · cases hs; rfl
        rw [hres]
        refine hq.imp_right fun hq => ?_
        simp only [ctlLab] at h2
        cases hh : handed s.conn l with
        | none => simp [hh] at h2; rw [h2]; exact hq
        | some p => simp [hh] at h2; exact unstarted_step h2 hq (by simp) (by simp)
      | ctl l =>
        simp only [ctlLab] at h2
        simp only at hs
        split at hs
        · next ho =>
          rw [Option.map_eq_some_iff] at hs
          obtain ⟨t, ht, rfl⟩ := hs
          by_cases hr : s.result = some true
          · exact .inl hr
          · refine .inr (unstarted_step h2 (hq.resolve_left hr) ?_ ?_) <;> rintro rfl <;> simp [ownStep, hr] at ho
        · cases hs
      | connected ok =>
        simp only [ctlLab] at h2
        simp only at hs
        split at hs
        · next hc =>
          cases hs
          exact .inr (hq.resolve_left (by rw [hc.1]; simp))
        · cases hs
    · rw [h0]
      right
      have : ∀ (ms : List Node) (t : CSt), t.disc = .absent → t.saver = .absent → (∀ x, CEv.save x ∉ t.hist) →
          (t.loadNodes ms).disc = .absent ∧ (t.loadNodes ms).saver = .absent ∧ ∀ x, CEv.save x ∉ (t.loadNodes ms).hist := by
        intro ms
        induction ms with
        | nil => intro t a b c; exact ⟨a, b, c⟩
        | cons m ms ih => intro t a b c; exact ih _ a b (fun x => by simpa [CSt.loadNode, CSt.push] using c x)
      obtain ⟨a, b, c⟩ := this ns (newController f) rfl rfl (fun x => by simp [newController])
      exact ⟨a, b, rfl, c⟩
  obtain ⟨a, -, b, c⟩ := (key n).resolve_left hr
  exact ⟨b, a, c⟩

/-! ### An instance -/

/-- The port is opened, node 2 is discovered; then its frame "on" is read and worked off. -/
def exSys : List SLabel :=
  [.conn (.connect true), .connected true] ++ discOne.map .ctl ++ [.conn (.reader (.read ⟨exReport, true, 5⟩))] ++
    exWork.map .conn ++ [.ctl (.deliver 0), .ctl (.deliver 0), .ctl (.deliver 0)]

/-- The reads of it. -/
def exSysSession : Session := [(⟨[.frame exReport], none⟩, ⟨exReport, true, 5⟩, [])]

theorem exSysSession_ok : ∀ x ∈ [exSysSession, []], x.Ok := by
  intro x hx
  simp at hx
  rcases hx with rfl | rfl
  case inr => intro b hb; cases hb
  intro b hb
  simp [exSysSession] at hb
  subst hb
  refine ⟨⟨?_, by simp⟩, by simp, by decide⟩
  intro t ht; simp at ht; subst ht; exact exReport_good

/-- Nothing is read, opened or requested. -/
def inert : SLabel → Bool
  | .conn (.take _ _) | .conn (.reader (.read _)) | .conn (.connect _) => false
  | _ => true

/-- A fair execution that meets the hypotheses: the discovery is over at moment 13, at moment 14 the frame has been read
but not even cut out of the buffer, and nothing more is read or requested. -/
example : ∃ e : Exec (sysStep .perIteration demoDB), FairSys e ∧ e.st 0 = sysStart false [] ∧
    (e.st 13).ctl.disc = .done ∧ (e.st 13).ctl.list.get (2 : UInt8).toNat = some 0 ∧ AllApplied 2 (e.st 13).ctl ∧
    NoMoreRequests e 14 ∧ NoMoreReads e 14 ∧ (e.st 14).conn.reader = .loop ∧ callbacks (e.st 14).conn = [] ∧
    boolState ((e.st 14).ctl.heap 0).node "on".toList = none ∧
    sessions (connSteps e 14) = [exSysSession, []].map Session.reads ∧ (∀ x ∈ [exSysSession, []], x.Ok) ∧
    (∃ fr ∈ onWire [exSysSession, []], WireOn fr 2 true) ∧ (∀ n, ¬ Sys.dead (e.st n)) := by
  have hv : (runSteps (sysStep .perIteration demoDB) (sysStart false []) exSys).map (fun s =>
      restB s.conn && cRestB s.ctl && s.conn.crashed.isNone && s.ctl.crashed.isNone) = some true := by decide +kernel
  cases hr : runSteps (sysStep .perIteration demoDB) (sysStart false []) exSys with
  | none => rw [hr] at hv; cases hv
  | some s =>
    have hr0 : runSteps (sysStep .perIteration demoDB) (sysStart false []) exSys = some (sysTail s 0) := hr
    rw [hr] at hv
    simp only [Option.map_some, Option.some.injEq, Bool.and_eq_true, Option.isNone_iff_eq_none] at hv
    obtain ⟨⟨⟨v1, v2⟩, v3⟩, v4⟩ := hv
    let e0 := execFin (sysStep .perIteration demoDB) (sysStart false []) exSys s hr none (by simp)
    have hst : e0.st exSys.length = s := execFin_end _ _ (Nat.le_refl _)
    have hp := sys_parts (e := e0) (f := false) (ns := []) (by simp [e0, execFin, runSteps]) exSys.length
    rw [hst] at hp
    let e := execTail (sysStep .perIteration demoDB) (sysStart false []) exSys (sysTail s) (.ctl (.tick 1)) hr0 (sysTail_step v3 v4)
    have v : ∀ n (p : Sys → Bool), n < exSys.length →
        (runSteps (sysStep .perIteration demoDB) (sysStart false []) (exSys.take n)).map p = some true → p (e.st n) = true := by
      intro n p hn hp
      cases hr : runSteps (sysStep .perIteration demoDB) (sysStart false []) (exSys.take n) with
      | none => rw [hr] at hp; cases hp
      | some t => rw [hr] at hp; rw [show e.st n = t from execTail_mid hr0 _ hn hr]; simpa using hp
    have hlab : ∀ m, 14 ≤ m → ∃ l, e.lab m = some l ∧ inert l = true := by
      intro m hm
      refine ⟨_, rfl, ?_⟩
      by_cases hlt : m < exSys.length
      · have hall : ((exSys.drop 14).all inert) = true := by decide +kernel
        rw [List.all_eq_true] at hall
        rw [if_pos hlt, List.getElem?_eq_getElem hlt, Option.getD_some]
        refine hall _ (List.mem_of_getElem? (i := m - 14) ?_)
        rw [List.getElem?_drop, show 14 + (m - 14) = m by omega, List.getElem?_eq_getElem hlt]
      · rw [if_neg hlt]; rfl
    have hdeadB : ∀ n, ¬ Sys.dead (e.st n) := by
      intro n hd
      have h1 := dead_stays (e := e) (n := n) (m := n + exSys.length) (by omega) hd
      rw [show e.st (n + exSys.length) = _ from execTail_end hr0 _ (by omega)] at h1
      rcases h1 with h1 | h1
      · exact h1 v3
      · exact h1 v4
    refine ⟨e, sys_fair hr0 v3 v4 (quiet_of_restB ⟨_, hp.1⟩ v1) (cquiet_of_rest (cinv noFileGood hp.2) v2), ?_, ?_, ?_, ?_, ?_,
      ?_, ?_, ?_, ?_, ?_, exSysSession_ok, ⟨exReport, by decide, ?_⟩, hdeadB⟩
    · exact execTail_mid hr0 _ (by decide) rfl
    · simpa using v 13 (fun s => decide (s.ctl.disc = .done)) (by decide) (by decide +kernel)
    · simpa using v 13 (fun s => decide (s.ctl.list.get (2 : UInt8).toNat = some 0)) (by decide) (by decide +kernel)
    · intro k r hk
      have h1 : arrivals (e.st 13).ctl.hist = [] := by
        simpa using v 13 (fun s => decide (arrivals s.ctl.hist = [])) (by decide) (by decide +kernel)
      have := mem_arrivals.2 ⟨k, arrivalOf_mem hk⟩
      rw [h1] at this; cases this
    · intro m hm w src hc
      obtain ⟨l, h1, h2⟩ := hlab m hm
      rw [h1] at hc; cases hc; cases h2
    · intro m hm
      obtain ⟨l, h1, h2⟩ := hlab m hm
      constructor
      · intro r hc; rw [h1] at hc; cases hc; cases h2
      · intro hc; rw [h1] at hc; cases hc; cases h2
    · simpa using v 14 (fun s => decide (s.conn.reader = .loop)) (by decide) (by decide +kernel)
    · simpa using v 14 (fun s => decide (callbacks s.conn = [])) (by decide) (by decide +kernel)
    · simpa using v 14 (fun s => decide (boolState (s.ctl.heap 0).node "on".toList = none)) (by decide) (by decide +kernel)
    · rfl
    · exact .inl ⟨0xFF, ⟨0x00, 0x00, 0x03, [], ⟨0x09, 0x2A, rfl, rfl, by decide⟩, rfl, by decide⟩, rfl⟩

/-- `Connect` returned an error, the port is opened later, and node 2 of the file gets its report. -/
example : ∃ e : Exec (sysStep .perLoop demoDB), e.st 0 = sysStart true [fileNode 2] ∧ ∃ n, (e.st n).result = some false ∧
    boolState ((e.st n).ctl.heap 0).node "on".toList = some true := by
  let ls : List SLabel := [.conn (.connect false), .connected false, .conn (.connect true),
    .conn (.reader (.read ⟨exReport, true, 5⟩))] ++ exWork.map .conn ++ [.ctl (.deliver 0), .ctl (.deliver 0), .ctl (.deliver 0)]
  have hv : (runSteps (sysStep .perLoop demoDB) (sysStart true [fileNode 2]) ls).map (fun s =>
      decide (s.result = some false ∧ boolState (s.ctl.heap 0).node "on".toList = some true)) = some true := by decide +kernel
  cases hr : runSteps (sysStep .perLoop demoDB) (sysStart true [fileNode 2]) ls with
  | none => rw [hr] at hv; cases hv
  | some s =>
    rw [hr] at hv
    refine ⟨execFin _ _ ls s hr none (by simp), by simp [execFin, runSteps], ls.length, ?_⟩
    rw [execFin_end _ _ (Nat.le_refl _)]
    simpa using hv

end Verif.Props
