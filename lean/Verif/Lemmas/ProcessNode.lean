import Verif.Lemmas.ProcessFair
import Verif.Lemmas.NodeFair
import Verif.Lemmas.CtlRun

/-
What one node does in an execution of the joined process.
-/

set_option linter.unusedSimpArgs false
set_option linter.unusedVariables false
set_option maxHeartbeats 1000000

namespace Verif.Lemmas.Process

open Verif.Go Verif.Model Verif.Model.Conn Verif.Spec Verif.Lemmas Verif.Lemmas.Conn Verif.Lemmas.Ctl Verif.Lemmas.NodeM
  Verif.Lemmas.EndToEnd Verif.Lemmas.System Verif.Props

variable {lv : LoopVars} {db : DB} {f : Bool} {ns : List Node} {e : Exec (wStep lv db)} {ref : Nat}

/-! ### The node's part of a step -/

/-- What a step of the controller is for node `ref`. -/
def nodeLab (ref : Nat) (s : CSt) : CLabel → Option NLabel
  | .node r l => if r = ref then some l else none
  | .disc _ =>
    match s.disc with
    | .setup r _ => if r = ref then some .setup else none
    | .start r _ => if r = ref then some .identify else none
    | _ => none
  | .deliver k =>
    match s.deliv k with
    | .process r rep => if r = ref then some (.report rep) else none
    | _ => none
  | _ => none

theorem node_part {s s' : CSt} {l : CLabel} (hlt : ref < s.nHeap) (h : cStep db s l = some s') :
    match nodeLab ref s l with
    | some l' => nodeStep db (s.heap ref) l' = some (s'.heap ref)
    | none => s'.heap ref = s.heap ref := by
  ctl_step h
  all_goals simp_all [nodeLab, updN]
  all_goals grind

/-- What a step of the process is for node `ref`. -/
def wNodeLab (ref : Nat) (w : Whole) (l : WLabel) : Option NLabel :=
  (ctlLab w.sys (some (sysLab w l))).bind (nodeLab ref w.sys.ctl)

theorem w_node_part {w w' : Whole} {l : WLabel} (hlt : ref < w.sys.ctl.nHeap) (h : wStep lv db w l = some w') :
    match wNodeLab ref w l with
    | some l' => nodeStep db (w.sys.ctl.heap ref) l' = some (w'.sys.ctl.heap ref)
    | none => w'.sys.ctl.heap ref = w.sys.ctl.heap ref := by
  unfold wNodeLab
  rcases ctl_of h with ⟨cl, g1, g2⟩ | ⟨g1, g2⟩
  · rw [g2]
    have := node_part hlt g1
    simp only [Option.bind_some]
    cases hx : nodeLab ref w.sys.ctl cl <;> rw [hx] at this <;> exact this
  · rw [g2, g1]; rfl

theorem nHeap_keeps (e : Exec (wStep lv db)) {n : Nat} (h : ref < (e.st n).sys.ctl.nHeap) (m : Nat) (hm : n ≤ m) :
    ref < (e.st m).sys.ctl.nHeap :=
  exec_keep e (Q := fun w => ref < w.sys.ctl.nHeap) (fun w l w' hq hs => by
    rcases ctl_of hs with ⟨cl, g, -⟩ | ⟨g, -⟩
    · exact Nat.lt_of_lt_of_le hq (nHeap_step g)
    · rw [g]; exact hq) h m hm

/-- What node `ref` does from moment `n` on. -/
def nodeExec (e : Exec (wStep lv db)) (ref n : Nat) (h : ref < (e.st n).sys.ctl.nHeap) : Exec (nodeStep db) where
  st m := (e.st (n + m)).sys.ctl.heap ref
  lab m := (e.lab (n + m)).bind (wNodeLab ref (e.st (n + m)))
  next m := by
    have := e.next (n + m)
    cases hl : e.lab (n + m) with
    | none => rw [hl] at this; simp only [Option.bind_none]; show (e.st (n + m + 1)).sys.ctl.heap ref = _; rw [this]
    | some l =>
      rw [hl] at this
      have hp := w_node_part (nHeap_keeps e h (n + m) (by omega)) this
      simp only [Option.bind_some]
      cases hx : wNodeLab ref (e.st (n + m)) l <;> rw [hx] at hp <;> exact hp

/-! ### Where a node is -/

theorem run_nodeInv {M D : Nat} (hb : DBBound db M D) {n : Node} {ls : List NLabel} : ∀ {x : NSt},
    nodeRun db (NSt.start n) ls = some x → x.nIdent ≤ 1 →
      LenInv M D x ∧ WaitInv x ∧ ∀ i, i < x.nIdent → x.ident i ≠ .absent := by
  have gen : ∀ (ls : List NLabel) (y x : NSt), WakeInv y → (y.nIdent ≤ 1 → LenInv M D y ∧ WaitInv y) →
      (∀ i, i < y.nIdent → y.ident i ≠ .absent) → nodeRun db y ls = some x → x.nIdent ≤ 1 →
      LenInv M D x ∧ WaitInv x ∧ ∀ i, i < x.nIdent → x.ident i ≠ .absent := by
    intro ls
    induction ls with
    | nil => intro y x hw h1 h2 h h3; cases h; exact ⟨(h1 h3).1, (h1 h3).2, h2⟩
    | cons l ls ih =>
      intro y x hw h1 h2 h h3
      simp only [nodeRun] at h
      cases hs : nodeStep db y l with
      | none => rw [hs] at h; cases h
      | some z =>
        rw [hs] at h
        have hmono : y.nIdent ≤ z.nIdent := by
          clear ih h h1 h2 hw
          node_step hs
          all_goals first
            | exact Nat.le_refl _
            | (simp; done)
            | (dsimp only; omega)
        exact ih z x (wake_step hw hs) (fun hz => ⟨len_step hb hw (h1 (by omega)).1 hs hz, wait_step hw (h1 (by omega)).2 hs hz⟩)
          (present_step h2 hs) h h3
  intro x h h1
  refine gen ls _ x (wakeInv_start n) (fun _ => ⟨?_, wait_start n⟩) ?_ h h1
  · constructor <;> simp [NSt.start, classed, early, lacks]
  · intro i hi; simp [NSt.start] at hi

theorem reach_nodeInv {M D : Nat} (hb : DBBound db M D) (hg : GoodFile ns) {s : CSt} (hr : CReach db f ns s) (hlt : ref < s.nHeap)
    (hi : (s.heap ref).nIdent ≠ 0) : NodeInv M D (s.heap ref) := by
  have hc := cinv hg hr
  have hs := hc.safe ref hlt
  obtain ⟨n, -, ls, hrun, -⟩ := (bornInv hg hr).born ref hlt
  obtain ⟨h1, h2, h3⟩ := run_nodeInv hb hrun (hc.one ref hlt)
  exact ⟨hs.wake, hs.idInv, ⟨hs.mapB, hs.mapF, hs.conn.resolve_right hi⟩, hs.ok, h1, h2, h3⟩

/-! ### Requests -/

theorem nReq_step {s s' : St} {l : Label} (h : step lv s l = some s') : s.nReq ≤ s'.nReq := by
  conn_step h
  all_goals first
    | exact Nat.le_refl _
    | (simp; done)
    | (dsimp only; omega)

theorem reqs_step {w w' : Whole} {l : WLabel} (hi : ∀ who u, w.req who = some u → u < w.sys.conn.nReq)
    (h : wStep lv db w l = some w') : ∀ who u, w'.req who = some u → u < w'.sys.conn.nReq := by
  have hn : w.sys.conn.nReq ≤ w'.sys.conn.nReq := by
    rcases conn_of h with ⟨cl, g, -⟩ | ⟨g, -⟩
    · exact nReq_step g
    · rw [g]; exact Nat.le_refl _
  intro who u hu
  cases l with
  | sys l =>
    have hw := (may_of h).2
    rw [hw] at hu
    unfold Whole.after at hu
    split at hu
    · exact Nat.lt_of_lt_of_le (hi who u hu) hn
    · simp only [updW] at hu
      split at hu
      · cases hu
      · exact Nat.lt_of_lt_of_le (hi who u hu) hn
    · exact Nat.lt_of_lt_of_le (hi who u hu) hn
  | ask who' =>
    have hp := conn_part (sys_part h)
    cases hwa : w.want who' with
    | none => simp [wStep, hwa] at h
    | some a =>
      simp only [sysLab, hwa] at hp
      have hlt : w.sys.conn.nReq < w'.sys.conn.nReq := by
        have hp : step lv w.sys.conn (.submit a.data a.kind (a.kind != .write) a.er) = some w'.sys.conn := hp
        clear h hn
        generalize w'.sys.conn = c at hp
        unfold step at hp
        split at hp
        · cases hp
        · simp only [submit] at hp
          obtain ⟨pkg, hpk, -⟩ := newSendPackage_ok a.data (if a.kind = .waitReport then a.er else 0)
          rw [hpk] at hp
          simp only [Option.some.injEq] at hp
          rw [← hp]
          exact Nat.lt_succ_self _
      simp only [wStep, hwa] at h
      rw [Option.map_eq_some_iff] at h
      obtain ⟨s, hs, rfl⟩ := h
      simp only [updW] at hu
      split at hu
      · simp only [Option.some.injEq] at hu; omega
      · exact Nat.lt_of_lt_of_le (hi who u hu) hn

theorem reqs_exec (h0 : e.st 0 = wStart f ns) (n : Nat) : ∀ who u, (e.st n).req who = some u → u < (e.st n).sys.conn.nReq := by
  refine exec_keep e (Q := fun w => ∀ who u, w.req who = some u → u < w.sys.conn.nReq) (fun _ _ _ => reqs_step) (n := 0) ?_ n
    (Nat.zero_le _)
  rw [h0]
  intro who u hu
  cases hu

theorem sent_step {s s' : St} {l : Label} {u : Nat} (hu : u < s.nReq) (hd : s.client u ≠ .sending) (h : step lv s l = some s') :
    u < s'.nReq ∧ s'.client u ≠ .sending := by
  conn_step h
  all_goals try exact ⟨hu, hd⟩
  all_goals grind [upd]

/-- A goroutine that has nothing else to do is not held up for ever. -/
theorem gets_free (hf : FairWhole e) (ha : ∀ n, ¬ Sys.dead (e.st n).sys) (h0 : e.st 0 = wStart f ns) {who : Who} {n : Nat}
    (hw : 0 < (e.st n).sys.conn.nWriter) (hm : ∀ m l, n ≤ m → e.lab m = some l → ¬ moves who l) :
    ∃ m, n ≤ m ∧ ∀ k, m ≤ k → (e.st k).busy who = false := by
  -- the request is submitted
  obtain ⟨m, r, h1, h2⟩ : ∃ m r, n ≤ m ∧ ∀ k, m ≤ k → (e.st k).want who = none ∧ (e.st k).req who = r := by
    cases hx : (e.st n).want who with
    | some a =>
      obtain ⟨m, u, h1, h2, -⟩ := gets_submitted hf ha (.inl hx) hm
      exact ⟨m, some u, h1, h2⟩
    | none =>
      refine ⟨n, (e.st n).req who, Nat.le_refl _, fun k hk => ?_⟩
      induction hk with
      | refl => exact ⟨hx, rfl⟩
      | step hk ih =>
        next k =>
        have := e.next k
        split at this
        · next l hl =>
          have hne : l ≠ .ask who := by
            rintro rfl
            simp [wStep, ih.1] at this
          obtain ⟨g1, g2⟩ := (req_keeps this (hm k l hk hl)).1 hne
          rw [g1, g2]; exact ih
        · rw [this]; exact ih
  cases r with
  | none => exact ⟨m, h1, fun k hk => by simp [Whole.busy, (h2 k hk).1, (h2 k hk).2]⟩
  | some u =>
    have hu := reqs_exec h0 m who u (h2 m (Nat.le_refl _)).2
    obtain ⟨m', g1, g2⟩ : ∃ m', m ≤ m' ∧ (e.st m').sys.conn.client u ≠ .sending := by
      by_cases hc : (e.st m).sys.conn.client u = .sending
      · have hwm : 0 < (e.st m).sys.conn.nWriter := by
          refine Nat.lt_of_lt_of_le hw ?_
          exact exec_keep e (Q := fun w => (e.st n).sys.conn.nWriter ≤ w.sys.conn.nWriter) (fun w l w' hq hs => by
            rcases conn_of hs with ⟨cl, g, -⟩ | ⟨g, -⟩
            · exact Nat.le_trans hq (nWriter_step g)
            · rw [g]; exact hq) (Nat.le_refl _) m h1
        obtain ⟨m', g1, g2⟩ := C96_write_returns (e := connExec (sysExec e)) (w_conn_fair hf ha)
          (by show Reachable lv (e.st 0).sys.conn; exact (w_reach h0 0).1) u m hwm hu hc
        refine ⟨m', g1, ?_⟩
        rcases g2 with g2 | g2
        · exact absurd (.inl g2) (ha m')
        · have g2 : (e.st m').sys.conn.client u = _ := g2
          rw [g2]
          split <;> simp
      · exact ⟨m, Nat.le_refl _, hc⟩
    refine ⟨m', by omega, fun k hk => ?_⟩
    have hu' : u < (e.st m').sys.conn.nReq := reqs_exec h0 m' who u (h2 m' g1).2
    have := (exec_keep e (Q := fun w => u < w.sys.conn.nReq ∧ w.sys.conn.client u ≠ .sending) (fun w l w' hq hs => by
      rcases conn_of hs with ⟨cl, g, -⟩ | ⟨g, -⟩
      · exact sent_step hq.1 hq.2 g
      · rw [g]; exact hq) ⟨hu', g2⟩ k hk).2
    simp [Whole.busy, (h2 k (by omega)).1, (h2 k (by omega)).2, this]

/-! ### The node is not passed over -/

theorem ident_stays {s s' : NSt} {l : NLabel} {i : Nat} (hi : i < s.nIdent) (hl : ∀ a, l ≠ .ident i a)
    (h : nodeStep db s l = some s') : i < s'.nIdent ∧ s'.ident i = s.ident i := by
  node_step h
  all_goals try exact ⟨hi, rfl⟩
  all_goals grind [updN]

theorem answer_ok {s : NSt} {i : Nat} (hc : s.crashed = none) (hw : awaits (s.ident i) = true) (hs : s.ident i ≠ .reply .states)
    (hl : s.lock = none) (a : Answer) : ∃ s', nodeStep db s (.ident i a) = some s' := by
  simp only [nodeStep, hc, Option.isSome_none, Bool.false_eq_true, if_false, identStep]
  cases hp : s.ident i with
  | info => simp only [hl, if_true]; split <;> exact ⟨_, rfl⟩
  | sensor t => exact ⟨_, rfl⟩
  | reply p =>
    cases p with
    | states => exact absurd hp hs
    | manufacturer => simp only [hl, if_true]; split <;> exact ⟨_, rfl⟩
    | endpoints => simp only [hl, if_true]; split <;> exact ⟨_, rfl⟩
  | _ => rw [hp] at hw; cases hw

theorem w_ident_enabled {w : Whole} {i : Nat} {a : Answer} {x : NSt} (hd : ¬ Sys.dead w.sys) (hlt : ref < w.sys.ctl.nHeap)
    (hm : w.mayIdent ref i a = true) (hs : nodeStep db (w.sys.ctl.heap ref) (.ident i a) = some x) :
    Enabled (wStep lv db) (onSys (onCtl fun l => ∃ a, l = .node ref (.ident i a))) w := by
  simp only [Sys.dead, not_or, ne_eq, Classical.not_not] at hd
  have : ∃ w', wStep lv db w (.sys (.ctl (.node ref (.ident i a)))) = some w' := by
    simp [wStep, Whole.may, hm, sysStep, hd.1, hd.2, ownStep, cStep, hlt, hs]
  obtain ⟨w', h'⟩ := this
  exact ⟨.sys (.ctl (.node ref (.ident i a))), w', ⟨a, rfl⟩, h'⟩

theorem ident_fair {n0 i : Nat} (hf : FairWhole e) (ha : ∀ n, ¬ Sys.dead (e.st n).sys) (h0 : e.st 0 = wStart f ns)
    (hg : GoodFile ns) (hlt : ref < (e.st n0).sys.ctl.nHeap) (hl : ∀ m, n0 ≤ m → ¬ Late (e.st m) (.ident ref i)) :
    Fairly (nodeExec e ref n0 hlt) fun l => ∃ a, l = .ident i a := by
  intro hen n
  apply Classical.byContradiction
  intro hno
  have hnl : ∀ m x, n0 + n ≤ m → e.lab m ≠ some (.sys (.ctl (.node ref (.ident i x)))) := by
    intro m x hm hlab
    refine hno ⟨m - n0, .ident i x, by omega, ?_, x, rfl⟩
    have : n0 + (m - n0) = m := by omega
    simp [nodeExec, this, hlab, wNodeLab, sysLab, ctlLab, nodeLab]
  have hmv : ∀ m l, n0 + n ≤ m → e.lab m = some l → ¬ moves (.ident ref i) l := by
    rintro m l hm hlab (⟨h, -⟩ | ⟨r, j, x, h1, h2⟩)
    · cases h
    · cases h1
      rw [h2] at hlab
      exact hnl m x hm hlab
  -- the identification exists
  have hci := fun m => cinv hg (w_reach h0 m).2
  obtain ⟨n1, hn1, hi1⟩ : ∃ n1, n0 + n ≤ n1 ∧ i < ((e.st n1).sys.ctl.heap ref).nIdent := by
    obtain ⟨m, hm, l, s, ⟨a, rfl⟩, hs⟩ := hen n
    refine ⟨n0 + m, by omega, Classical.byContradiction fun hlt' => ?_⟩
    have := ((hci (n0 + m)).safe ref (nHeap_keeps e hlt _ (by omega))).wake.fresh i (by omega)
    have hs : nodeStep db ((e.st (n0 + m)).sys.ctl.heap ref) (.ident i a) = some s := hs
    simp [nodeStep, identStep, this] at hs
  have hst : ∀ m, n1 ≤ m → i < ((e.st m).sys.ctl.heap ref).nIdent ∧
      ((e.st m).sys.ctl.heap ref).ident i = ((e.st n1).sys.ctl.heap ref).ident i := by
    intro m hm
    induction hm with
    | refl => exact ⟨hi1, rfl⟩
    | step hm ih =>
      next m =>
      have hnm : n1 ≤ m := hm
      have := (nodeExec e ref n0 hlt).next (m - n0)
      have e1 : n0 + (m - n0) = m := by omega
      have e2 : n0 + (m - n0 + 1) = m + 1 := by omega
      split at this
      · next l hlab =>
        simp only [nodeExec, e1, e2] at this
        obtain ⟨g1, g2⟩ := ident_stays ih.1 (fun a he => hno ⟨m - n0, l, by omega, hlab, a, he⟩) this
        exact ⟨g1, g2.trans ih.2⟩
      · simp only [nodeExec, e1, e2] at this
        rw [this]; exact ih
  have hup : 0 < (e.st n1).sys.conn.nWriter := by
    refine (up_inv h0 n1).res ((up_inv h0 n1).disc fun h => ?_)
    have := (hci n1).zero ref (nHeap_keeps e hlt _ (by omega)) (.inl (by rw [h]; rfl))
    omega
  have hmv1 : ∀ m l, n1 ≤ m → e.lab m = some l → ¬ moves (.ident ref i) l := fun m l hm => hmv m l (by omega)
  -- from some moment on it can go on whenever the node lets it
  have can : ∀ k, ∃ m, k ≤ m ∧ Enabled (wStep lv db) (onSys (onCtl fun l => ∃ a, l = .node ref (.ident i a))) (e.st m) := by
    obtain ⟨m1, g1, g2⟩ := gets_free hf ha h0 hup hmv1
    by_cases hw : awaits (((e.st n1).sys.ctl.heap ref).ident i) = true
    · obtain ⟨a, b1, b2⟩ := (winv_exec h0 n1).ident ref (nHeap_keeps e hlt _ (by omega)) i hw
      have hk : a.kind ≠ .write := by
        revert b1
        generalize ((e.st n1).sys.ctl.heap ref).ident i = p
        intro b1
        unfold askAt at b1
        split at b1 <;> simp at b1 <;> rw [← b1] <;> simp
      obtain ⟨m2, u, c1, c2, -, c4⟩ := gets_answered hf ha h0 hk hup b2 hmv1
      rcases c4 with c4 | c4
      · exact absurd ⟨u, c2, c4⟩ (hl m2 (by omega))
      intro k
      obtain ⟨m, d1, d2⟩ := node_lock_free (e := ctlExec (sysExec e)) ref (w_proc_fair hf ha ref) hg
        (by show CReach db f ns (e.st 0).sys.ctl; exact (w_reach h0 0).2)
        (fun n => by
          have := ha n
          simp only [Sys.dead, not_or, ne_eq, Classical.not_not] at this
          exact this.2) (max k (max m1 m2)) (by
            show ref < (e.st (max k (max m1 m2))).sys.ctl.nHeap
            exact nHeap_keeps e hlt _ (by omega))
      refine ⟨m, by omega, ?_⟩
      obtain ⟨-, q2, q3⟩ := c4 m (by omega)
      have hlm := nHeap_keeps e hlt m (by omega)
      have hsm := (hst m (by omega)).2
      obtain ⟨a', ha'⟩ : ∃ a', identAnswer (e.st m).sys.conn (((e.st m).sys.ctl.heap ref).ident i) u = some a' := by
        unfold identAnswer
        obtain ⟨x, hx⟩ := heard_done q3
        obtain ⟨y, hy⟩ := heardReport_done q3
        split
        · exact ⟨_, by rw [hx]; rfl⟩
        · exact ⟨_, by rw [hy]; rfl⟩
      have hs : ((e.st m).sys.ctl.heap ref).ident i ≠ .reply .states := by
        rw [hsm]
        intro hx
        rw [hx] at b1
        cases b1
      obtain ⟨x, hx⟩ := answer_ok (db := db) ((hci m).safe ref hlm).ok (by rw [hsm]; exact hw) hs d2 a'
      exact w_ident_enabled (ha m) hlm (by simp [Whole.mayIdent, g2 m (by omega), q2, ha']) hx
    · intro k
      obtain ⟨m, d1, l, s, ⟨a, rfl⟩, d2⟩ := hen (max k m1)
      refine ⟨n0 + m, by omega, ?_⟩
      have hsm := (hst (n0 + m) (by omega)).2
      exact w_ident_enabled (ha _) (nHeap_keeps e hlt _ (by omega))
        (by simp [Whole.mayIdent, g2 (n0 + m) (by omega), hsm, hw]) d2
  obtain ⟨m, l, h1, h2, h3⟩ := hf.ident ref i can (n0 + n)
  cases l with
  | ask who => exact h3
  | sys l =>
    cases l with
    | conn l => exact h3
    | connected b => exact h3
    | ctl l =>
      obtain ⟨a, rfl⟩ := h3
      exact hnl m a h1 h2

theorem proc_fair {n0 : Nat} (hf : FairWhole e) (ha : ∀ n, ¬ Sys.dead (e.st n).sys) (hlt : ref < (e.st n0).sys.ctl.nHeap) (j : Nat) :
    Fairly (nodeExec e ref n0 hlt) fun l => l = .proc j := by
  intro hen n
  obtain ⟨m, l, h1, h2, h3⟩ := w_proc_fair hf ha ref j (fun k => by
    obtain ⟨m, g1, l, s, rfl, g2⟩ := hen k
    refine ⟨n0 + m, by omega, .node ref (.proc j), ((e.st (n0 + m)).sys.ctl).put ref s, rfl, ?_⟩
    have := ha (n0 + m)
    simp only [Sys.dead, not_or, ne_eq, Classical.not_not] at this
    show cStep db (e.st (n0 + m)).sys.ctl _ = some (((e.st (n0 + m)).sys.ctl).put ref s)
    have g2 : nodeStep db ((e.st (n0 + m)).sys.ctl.heap ref) (.proc j) = some s := g2
    simp [cStep, this.2, nHeap_keeps e hlt (n0 + m) (by omega), g2]) (n0 + n)
  subst h3
  refine ⟨m - n0, .proc j, by omega, ?_, rfl⟩
  have e1 : n0 + (m - n0) = m := by omega
  simp only [ctlExec, sysExec] at h2
  cases hlab : e.lab m with
  | none => simp [hlab, ctlLab] at h2
  | some l =>
    simp [hlab] at h2
    simp [nodeExec, e1, hlab, wNodeLab, h2, nodeLab]

/-! ### An identification -/

theorem unasked_run {n : Node} (hn : n.protocolInfo = none) {ls : List NLabel} {x : NSt} (h : nodeRun db (NSt.start n) ls = some x)
    (h1 : x.nIdent = 0) : x.node.protocolInfo = none := by
  have := run_induct (db := db) (P := fun y => WakeInv y ∧ (y.nIdent = 0 → y.node.protocolInfo = none)) (fun y l z hy hs => by
    refine ⟨wake_step hy.1 hs, fun hz => ?_⟩
    have h2 := hy.2
    have h3 := hy.1.fresh
    clear hy
    node_step hs
    all_goals first
      | grind [updN, SameCore, → alarmOn_ok, → alarmOff_ok, → applyState_core, setManufacturer_fields]) ls _ _ ⟨wakeInv_start n, fun _ => hn⟩ h
  exact this.2 h1

/-- The node right after `Identify` was called. -/
theorem identifies (h0 : e.st 0 = wStart f ns) (hg : GoodFile ns) {n : Nat} (hs : Identifies e ref n) :
    ref < (e.st (n + 1)).sys.ctl.nHeap ∧ ((e.st (n + 1)).sys.ctl.heap ref).nIdent = 1 ∧
      ((e.st (n + 1)).sys.ctl.heap ref).ident 0 = .top ∧ ((e.st (n + 1)).sys.ctl.heap ref).node.protocolInfo = none := by
  obtain ⟨⟨todo, h1⟩, a, h2⟩ := hs
  have hr := (w_reach h0 n).2
  have hc := cinv hg hr
  have hlt : ref < (e.st n).sys.ctl.nHeap := hc.ref ref (by rw [h1]; rfl)
  have hz : ((e.st n).sys.ctl.heap ref).nIdent = 0 := hc.zero ref hlt (.inr (.inr (by rw [h1]; rfl)))
  have hx := e.next n
  rw [h2] at hx
  have hp := w_node_part hlt hx
  simp [wNodeLab, sysLab, ctlLab, nodeLab, h1] at hp
  obtain ⟨m, hb, ls, hrun, -⟩ := (bornInv hg hr).born ref hlt
  have hpi := unasked_run (by
    rcases hb with ⟨-, id, rfl⟩ | ⟨m', h3, rfl⟩
    · rfl
    · exact (hg.sound m' (List.mem_of_getElem? h3)).fresh.1) hrun hz
  refine ⟨nHeap_keeps e hlt _ (by omega), ?_⟩
  unfold nodeStep at hp
  split at hp
  · cases hp
  · simp only [Option.some.injEq] at hp
    rw [← hp]
    simp [hz, updN, hpi]

end Verif.Lemmas.Process
