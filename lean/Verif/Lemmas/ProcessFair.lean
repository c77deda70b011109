import Verif.Lemmas.ProcessInv

/-
The joined process: fair executions.
-/

set_option linter.unusedSimpArgs false
set_option linter.unusedVariables false
set_option maxHeartbeats 1000000

namespace Verif.Lemmas.Process

open Verif.Go Verif.Model Verif.Model.Conn Verif.Spec Verif.Lemmas Verif.Lemmas.Conn Verif.Lemmas.Ctl Verif.Lemmas.NodeM
  Verif.Lemmas.EndToEnd Verif.Lemmas.System Verif.Props

variable {lv : LoopVars} {db : DB} {f : Bool} {ns : List Node} {e : Exec (wStep lv db)}

theorem w_enabled {B : SLabel → Prop} {w : Whole} (hB : ∀ l, B l → w.may l = true) (h : Enabled (sysStep lv db) B w.sys) :
    Enabled (wStep lv db) (onSys B) w := by
  obtain ⟨l, s, hl, hs⟩ := h
  exact ⟨.sys l, w.after l s, hl, by simp [wStep, hB l hl, hs]⟩

theorem onSys_lab {B : SLabel → Prop} {l : WLabel} (w : Whole) (h : onSys B l) : B (sysLab w l) := by
  cases l with
  | sys l => exact h
  | ask who => exact absurd h id

theorem w_fairly {B : SLabel → Prop} (hB : ∀ (w : Whole) l, B l → w.may l = true) (hf : Fairly e (onSys B)) :
    Fairly (sysExec e) B := by
  intro h n
  obtain ⟨m, l, hm, h1, h2⟩ := hf (fun n => by
    obtain ⟨m, hm, hen⟩ := h n
    exact ⟨m, hm, w_enabled (hB _) hen⟩) n
  exact ⟨m, sysLab (e.st m) l, hm, by simp [sysExec, h1], onSys_lab _ h2⟩

theorem may_conn {A : Label → Prop} (w : Whole) (l : SLabel) (h : onConn A l) : w.may l = true := by
  cases l with
  | conn l => rfl
  | ctl l => exact absurd h id
  | connected b => exact absurd h id

theorem w_conn_fair (hf : FairWhole e) (ha : ∀ n, ¬ Sys.dead (e.st n).sys) : FairConn (connExec (sysExec e)) :=
  ⟨fun w => conn_fairly ha (w_fairly may_conn (hf.writer w)), fun t => conn_fairly ha (w_fairly may_conn (hf.timer t)),
    conn_fairly ha (w_fairly may_conn hf.reader), fun w => conn_fairly ha (w_fairly may_conn (hf.result w)),
    fun u => conn_fairly ha (w_fairly may_conn (hf.take u)), fun u => conn_fairly ha (w_fairly may_conn (hf.client u))⟩

theorem w_proc_fair (hf : FairWhole e) (ha : ∀ n, ¬ Sys.dead (e.st n).sys) (ref j : Nat) :
    Fairly (ctlExec (sysExec e)) fun l => l = .node ref (.proc j) := by
  refine ctl_fairly ha ?_ (w_fairly ?_ (hf.proc ref j))
  · rintro f l rfl; rfl
  · intro w l hl
    cases l with
    | conn l => exact absurd hl id
    | ctl l => simp only [onCtl] at hl; subst hl; rfl
    | connected b => exact absurd hl id

/-! ### The connection is there when the library uses it -/

structure UpInv (w : Whole) : Prop where
  res : w.sys.result = some true → 0 < w.sys.conn.nWriter
  disc : w.sys.ctl.disc ≠ .absent → w.sys.result = some true

theorem up_step {w w' : Whole} {l : WLabel} (hi : UpInv w) (h : wStep lv db w l = some w') : UpInv w' := by
  have hs := sys_part h
  have hn : w.sys.conn.nWriter ≤ w'.sys.conn.nWriter := by
    rcases conn_of h with ⟨cl, g, -⟩ | ⟨g, -⟩
    · exact nWriter_step g
    · rw [g]; exact Nat.le_refl _
  have hc := ctl_part hs
  generalize sysLab w l = sl at hs hc
  unfold sysStep at hs
  split at hs
  · cases hs
  cases sl with
  | conn cl =>
    have hr : w'.sys.result = w.sys.result := by
      simp only [Option.bind_eq_some_iff] at hs
      obtain ⟨c, -, hs⟩ := hs
      split at hs
      · rw [Option.map_eq_some_iff] at hs; obtain ⟨t, -, e⟩ := hs; rw [← e]
      · simp only [Option.some.injEq] at hs; rw [← hs]
    refine ⟨fun h1 => Nat.lt_of_lt_of_le (hi.res (hr ▸ h1)) hn, fun h1 => ?_⟩
    rw [hr]
    refine hi.disc fun h2 => h1 ?_
    simp only [ctlLab] at hc
    cases hh : handed w.sys.conn cl with
    | none => simp [hh] at hc; rw [hc]; exact h2
    | some p =>
      simp [hh] at hc
      unfold cStep at hc
      split at hc
      · cases hc
      · simp only [Option.some.injEq] at hc; rw [← hc]; exact h2
  | ctl cl =>
    simp only at hs
    split at hs
    · next ho =>
      rw [Option.map_eq_some_iff] at hs
      obtain ⟨t, ht, e⟩ := hs
      have hr : w'.sys.result = w.sys.result := by rw [← e]
      refine ⟨fun h1 => Nat.lt_of_lt_of_le (hi.res (hr ▸ h1)) hn, fun h1 => ?_⟩
      rw [hr]
      by_cases hd : w.sys.ctl.disc = .absent
      · have : cl = .startDisc := by
          simp only [ctlLab] at hc
          clear ht e
          generalize w'.sys.ctl = t' at hc h1
          generalize w.sys.ctl = t0 at hc hd
          ctl_step hc
          all_goals first
            | rfl
            | exact absurd hd h1
            | (simp at h1; exact absurd hd h1)
            | (simp_all; done)
        subst this
        simpa [ownStep] using ho
      · exact hi.disc hd
    · cases hs
  | connected ok =>
    simp only at hs
    split at hs
    · next hk =>
      simp only [Option.some.injEq] at hs
      have hr : w'.sys.result = some ok := by rw [← hs]
      have hcn : w'.sys.conn = w.sys.conn := by rw [← hs]
      have hct : w'.sys.ctl = w.sys.ctl := by rw [← hs]
      refine ⟨fun h1 => ?_, fun h1 => ?_⟩
      · rw [hr] at h1
        rw [hcn]
        exact hk.2 (by simpa using h1)
      · rw [hct] at h1
        have := hi.disc h1
        rw [hk.1] at this
        cases this
    · cases hs

theorem up_inv (h0 : e.st 0 = wStart f ns) (n : Nat) : UpInv (e.st n) := by
  refine exec_keep e (Q := UpInv) (fun _ _ _ => up_step) (n := 0) ?_ n (Nat.zero_le _)
  rw [h0]
  refine ⟨(fun h => by cases h), fun h => ?_⟩
  exact absurd (begun_start f ns).disc h

theorem winv_exec (h0 : e.st 0 = wStart f ns) (n : Nat) : WInv ns (e.st n) := by
  refine exec_keep e (Q := WInv ns) (fun _ _ _ => winv_step) (n := 0) ?_ n (Nat.zero_le _)
  rw [h0]
  exact winv_start f ns

theorem w_reach (h0 : e.st 0 = wStart f ns) (n : Nat) : Reachable lv (e.st n).sys.conn ∧ CReach db f ns (e.st n).sys.ctl := by
  have := sys_parts (e := sysExec e) (f := f) (ns := ns) (by show (e.st 0).sys = _; rw [h0]; rfl) n
  exact ⟨⟨_, this.1⟩, this.2⟩

/-! ### Requests of the library come to an end -/

/-- The step concerns the requests of `who`: the discovery begins, or the identification moves. -/
def moves (who : Who) (l : WLabel) : Prop :=
  (who = .disc ∧ l = .sys (.ctl .startDisc)) ∨ ∃ ref i x, who = .ident ref i ∧ l = .sys (.ctl (.node ref (.ident i x)))

theorem req_keeps {w w' : Whole} {l : WLabel} {who : Who} (h : wStep lv db w l = some w') (hl : ¬ moves who l) :
    (l ≠ .ask who → w'.want who = w.want who ∧ w'.req who = w.req who) ∧
      (l = .ask who → w'.want who = none ∧ w'.req who = some w.sys.conn.nReq) := by
  cases l with
  | sys l =>
    refine ⟨fun _ => ?_, fun h => by cases h⟩
    have hw := (may_of h).2
    unfold Whole.after at hw
    split at hw
    · rw [hw]
      refine ⟨?_, rfl⟩
      simp only [updW]
      rw [if_neg]
      intro e
      exact hl (.inl ⟨e, rfl⟩)
    · rw [hw]
      simp only [updW]
      rw [if_neg, if_neg]
      · exact ⟨rfl, rfl⟩
      · intro e; exact hl (.inr ⟨_, _, _, e, rfl⟩)
      · intro e; exact hl (.inr ⟨_, _, _, e, rfl⟩)
    · rw [hw]; exact ⟨rfl, rfl⟩
  | ask who' =>
    simp only [wStep] at h
    split at h
    · cases h
    · next b hb =>
      rw [Option.map_eq_some_iff] at h
      obtain ⟨s, hs, rfl⟩ := h
      constructor
      · intro hne
        have hne : who ≠ who' := fun e => hne (by rw [e])
        simp [updW, hne]
      · intro he
        cases he
        simp [updW]

theorem ask_enabled {w : Whole} {who : Who} {a : Ask} (hd : ¬ Sys.dead w.sys) (hw : w.want who = some a) :
    Enabled (wStep lv db) (fun l => l = .ask who) w := by
  simp only [Sys.dead, not_or, ne_eq, Classical.not_not] at hd
  obtain ⟨pkg, hp, -⟩ := newSendPackage_ok a.data (if a.kind = .waitReport then a.er else 0)
  have : ∃ w', wStep lv db w (.ask who) = some w' := by
    simp [wStep, hw, sysStep, hd.1, hd.2, step, submit, hp, handed]
  obtain ⟨w', h'⟩ := this
  exact ⟨_, w', rfl, h'⟩

/-- While its goroutine does nothing else, a request gets submitted. -/
theorem gets_submitted (hf : FairWhole e) (ha : ∀ n, ¬ Sys.dead (e.st n).sys) {who : Who} {n : Nat} {a : Ask}
    (hu : Under (e.st n) who a) (hm : ∀ m l, n ≤ m → e.lab m = some l → ¬ moves who l) :
    ∃ m u, n ≤ m ∧ (∀ k, m ≤ k → (e.st k).want who = none ∧ (e.st k).req who = some u) ∧ Sub (e.st m).sys.conn u a := by
  have hU : ∀ m, n ≤ m → Under (e.st m) who a := by
    intro m hnm
    induction hnm with
    | refl => exact hu
    | step hnm ih =>
      next m =>
      have := e.next m
      split at this
      · next l hl =>
        have hmv := hm m l hnm hl
        refine under_keeps this ih (fun h1 h2 => hmv (.inl ⟨h1, h2⟩)) (fun r i x h1 h2 => hmv (.inr ⟨r, i, x, h1, h2⟩))
      · rw [this]; exact ih
  obtain ⟨m, hnm, hw⟩ : ∃ m, n ≤ m ∧ (e.st m).want who = none := by
    apply Classical.byContradiction
    intro hno
    have hsome : ∀ m, n ≤ m → (e.st m).want who ≠ none := fun m h1 h2 => hno ⟨m, h1, h2⟩
    obtain ⟨m, l, h1, h2, rfl⟩ := hf.ask who (fun k => by
      refine ⟨max n k, by omega, ?_⟩
      cases hx : (e.st (max n k)).want who with
      | none => exact absurd hx (hsome _ (by omega))
      | some b => exact ask_enabled (ha _) hx) n
    have hs := e.next m
    rw [h2] at hs
    exact hsome (m + 1) (by omega) ((req_keeps hs (hm m _ h1 h2)).2 rfl).1
  rcases hU m hnm with h1 | ⟨h1, u, h2, h3⟩
  · rw [hw] at h1; cases h1
  refine ⟨m, u, hnm, fun k hk => ?_, h3⟩
  induction hk with
  | refl => exact ⟨h1, h2⟩
  | step hk ih =>
    next k =>
    have := e.next k
    split at this
    · next l hl =>
      have hne : l ≠ .ask who := by
        rintro rfl
        simp [wStep, ih.1] at this
      obtain ⟨g1, g2⟩ := (req_keeps this (hm k l (Nat.le_trans hnm hk) hl)).1 hne
      rw [g1, g2]; exact ih
    · rw [this]; exact ih

theorem client_done {s s' : St} {l : Label} {u : Nat} (hu : u < s.nReq) (hd : s.client u = .done) (h : step lv s l = some s') :
    u < s'.nReq ∧ s'.client u = .done := by
  conn_step h
  all_goals try exact ⟨hu, hd⟩
  all_goals grind [upd]

/-- It is answered, or the goroutine waits for ever on a nil channel. -/
theorem gets_answered (hf : FairWhole e) (ha : ∀ n, ¬ Sys.dead (e.st n).sys) (h0 : e.st 0 = wStart f ns) {who : Who} {n : Nat}
    {a : Ask} (hk : a.kind ≠ .write) (hw : 0 < (e.st n).sys.conn.nWriter) (hu : Under (e.st n) who a)
    (hm : ∀ m l, n ≤ m → e.lab m = some l → ¬ moves who l) :
    ∃ m u, n ≤ m ∧ (e.st m).req who = some u ∧ Sub (e.st m).sys.conn u a ∧
      ((e.st m).sys.conn.client u = .nilChan ∨
        ∀ k, m ≤ k → (e.st k).want who = none ∧ (e.st k).req who = some u ∧ (e.st k).sys.conn.client u = .done) := by
  obtain ⟨m, u, h1, h2, h3⟩ := gets_submitted hf ha hu hm
  have hr := (w_reach h0 m).1
  obtain ⟨c1, -, c3, c4⟩ := (contents hr).submit u _ _ _ _ h3
  have hto : ((e.st m).sys.conn.req u).timeout = true := by
    rw [c4]; simp [hk]
  have hwm : 0 < (e.st m).sys.conn.nWriter := by
    refine Nat.lt_of_lt_of_le hw ?_
    exact exec_keep e (Q := fun w => (e.st n).sys.conn.nWriter ≤ w.sys.conn.nWriter) (fun w l w' hq hs => by
      rcases conn_of hs with ⟨cl, g, -⟩ | ⟨g, -⟩
      · exact Nat.le_trans hq (nWriter_step g)
      · rw [g]; exact hq) (Nat.le_refl _) m h1
  obtain ⟨m', g1, g2⟩ := C96_every_request_ends_partial (e := connExec (sysExec e)) (w_conn_fair hf ha)
    (by show Reachable lv (e.st 0).sys.conn; exact (w_reach h0 0).1) u m hwm c1 hto
  have g2 : (e.st m').sys.conn.crashed ≠ none ∨ (e.st m').sys.conn.client u = .done ∨ (e.st m').sys.conn.client u = .nilChan := g2
  have hsub : Sub (e.st m').sys.conn u a :=
    exec_keep e (Q := fun w => Sub w.sys.conn u a) (fun w l w' hq hs => sub_mono hs hq) h3 m' g1
  refine ⟨m', u, by omega, (h2 m' g1).2, hsub, ?_⟩
  rcases g2 with g2 | g2 | g2
  · exact absurd (.inl g2) (ha m')
  · refine .inr fun k hk => ⟨(h2 k (by omega)).1, (h2 k (by omega)).2, ?_⟩
    have hu' := ((contents (w_reach h0 m').1).submit u _ _ _ _ hsub).1
    exact (exec_keep e (Q := fun w => u < w.sys.conn.nReq ∧ w.sys.conn.client u = .done) (fun w l w' hq hs => by
      rcases conn_of hs with ⟨cl, g, -⟩ | ⟨g, -⟩
      · exact client_done hq.1 hq.2 g
      · rw [g]; exact hq) ⟨hu', g2⟩ k hk).2
  · exact .inl g2

theorem heard_done {c : St} {u : Nat} (h : c.client u = .done) : ∃ m, heard c u = some m := by
  unfold heard
  split
  · exact ⟨_, rfl⟩
  · exact ⟨none, by simp [h]⟩

theorem heardReport_done {c : St} {u : Nat} (h : c.client u = .done) : ∃ m, heardReport c u = some m := by
  unfold heardReport
  rw [if_pos h]
  split
  · split <;> exact ⟨_, rfl⟩
  · exact ⟨_, rfl⟩

end Verif.Lemmas.Process
