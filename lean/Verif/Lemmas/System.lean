import Verif.Spec.System
import Verif.Props.ConnReaderFair
import Verif.Props.CtlFair
import Verif.Props.EndToEnd

/-
The process is its connection and its controller.
-/

set_option linter.unusedSimpArgs false
set_option linter.unusedVariables false
set_option maxHeartbeats 1000000

namespace Verif.Lemmas.System

open Verif.Go Verif.Model Verif.Model.Conn Verif.Spec Verif.Lemmas Verif.Lemmas.Conn Verif.Lemmas.Ctl Verif.Lemmas.EndToEnd
  Verif.Props

variable {lv : LoopVars} {db : DB}

/-- The step the connection makes. -/
def connLab : Option SLabel → Option Label
  | some (.conn l) => some l
  | _ => none

/-- The step the controller makes. -/
def ctlLab (s : Sys) : Option SLabel → Option CLabel
  | some (.conn l) => (handed s.conn l).map fun p => .arrive p.1 p.2
  | some (.ctl l) => some l
  | _ => none

theorem conn_part {s s' : Sys} {l : SLabel} (h : sysStep lv db s l = some s') :
    match connLab (some l) with
    | some l => step lv s.conn l = some s'.conn
    | none => s'.conn = s.conn := by
  unfold sysStep at h
  split at h
  · cases h
  cases l with
  | conn l =>
    simp only [connLab]
    simp only [Option.bind_eq_some_iff] at h
    obtain ⟨c, hc, h⟩ := h
    split at h
    · rw [Option.map_eq_some_iff] at h
      obtain ⟨t, -, rfl⟩ := h
      exact hc
    · cases h; exact hc
  | ctl l =>
    simp only [connLab]
    simp only at h
    split at h
    · rw [Option.map_eq_some_iff] at h
      obtain ⟨t, -, rfl⟩ := h
      rfl
    · cases h
  | connected ok =>
    simp only [connLab]
    simp only at h
    split at h
    · cases h; rfl
    · cases h

theorem ctl_part {s s' : Sys} {l : SLabel} (h : sysStep lv db s l = some s') :
    match ctlLab s (some l) with
    | some l => cStep db s.ctl l = some s'.ctl
    | none => s'.ctl = s.ctl := by
  unfold sysStep at h
  split at h
  · cases h
  cases l with
  | conn l =>
    simp only [Option.bind_eq_some_iff] at h
    obtain ⟨c, hc, h⟩ := h
    simp only [ctlLab]
    split at h
    · next id r hh =>
      rw [Option.map_eq_some_iff] at h
      obtain ⟨t, ht, rfl⟩ := h
      simpa [hh] using ht
    · next hh => cases h; simp [hh]
  | ctl l =>
    simp only [ctlLab]
    simp only at h
    split at h
    · rw [Option.map_eq_some_iff] at h
      obtain ⟨t, ht, rfl⟩ := h
      exact ht
    · cases h
  | connected ok =>
    simp only [ctlLab]
    simp only at h
    split at h
    · cases h; rfl
    · cases h

variable {e : Exec (sysStep lv db)}

/-- What the connection does in an execution of the process. -/
def connExec (e : Exec (sysStep lv db)) : Exec (step lv) where
  st n := (e.st n).conn
  lab n := connLab (e.lab n)
  next n := by
    have := e.next n
    cases hl : e.lab n with
    | none => rw [hl] at this; simp only [connLab]; rw [this]
    | some l => rw [hl] at this; have h := conn_part this; cases hx : connLab (some l) <;> rw [hx] at h <;> exact h

/-- What the controller does. -/
def ctlExec (e : Exec (sysStep lv db)) : Exec (cStep db) where
  st n := (e.st n).ctl
  lab n := ctlLab (e.st n) (e.lab n)
  next n := by
    have := e.next n
    cases hl : e.lab n with
    | none => rw [hl] at this; simp only [ctlLab]; rw [this]
    | some l => rw [hl] at this; have h := ctl_part this; cases hx : ctlLab (e.st n) (some l) <;> rw [hx] at h <;> exact h

theorem connSteps_before (n : Nat) : connSteps e n = before (connExec e) n := by
  unfold connSteps before
  congr 1

theorem conn_enabled {A : Label → Prop} {s : Sys} (h1 : s.conn.crashed = none) (h2 : s.ctl.crashed = none)
    (h : Enabled (step lv) A s.conn) : Enabled (sysStep lv db) (onConn A) s := by
  obtain ⟨l, c, hA, hs⟩ := h
  cases hh : handed s.conn l with
  | none => exact ⟨.conn l, ⟨c, s.ctl, s.result⟩, hA, by simp [sysStep, h1, h2, hs, hh]⟩
  | some p =>
    obtain ⟨t, ht⟩ : ∃ t, cStep db s.ctl (.arrive p.1 p.2) = some t := by simp [cStep, h2]
    exact ⟨.conn l, ⟨c, t, s.result⟩, hA, by simp [sysStep, h1, h2, hs, hh, ht]⟩

theorem ctl_enabled {A : CLabel → Prop} {s : Sys} (h1 : s.conn.crashed = none) (h2 : s.ctl.crashed = none)
    (hA : ∀ l, A l → ownStep s.result l = true) (h : Enabled (cStep db) A s.ctl) :
    Enabled (sysStep lv db) (onCtl A) s := by
  obtain ⟨l, t, hl, hs⟩ := h
  exact ⟨.ctl l, { s with ctl := t }, hl, by simp [sysStep, h1, h2, hs, hA l hl]⟩

theorem conn_fairly {A : Label → Prop} (ha : ∀ n, ¬ Sys.dead (e.st n)) (hf : Fairly e (onConn A)) :
    Fairly (connExec e) A := by
  intro h n
  obtain ⟨m, l, hm, h1, h2⟩ := hf (fun n => by
    obtain ⟨m, hm, hen⟩ := h n
    have := ha m
    simp only [Sys.dead, not_or, ne_eq, Classical.not_not] at this
    exact ⟨m, hm, conn_enabled this.1 this.2 hen⟩) n
  cases l with
  | conn l => exact ⟨m, l, hm, by simp [connExec, h1, connLab], h2⟩
  | ctl l => exact absurd h2 id
  | connected ok => exact absurd h2 id

theorem ctl_fairly {A : CLabel → Prop} (ha : ∀ n, ¬ Sys.dead (e.st n)) (hA : ∀ f l, A l → ownStep f l = true)
    (hf : Fairly e (onCtl A)) : Fairly (ctlExec e) A := by
  intro h n
  obtain ⟨m, l, hm, h1, h2⟩ := hf (fun n => by
    obtain ⟨m, hm, hen⟩ := h n
    have := ha m
    simp only [Sys.dead, not_or, ne_eq, Classical.not_not] at this
    exact ⟨m, hm, ctl_enabled this.1 this.2 (hA _) hen⟩) n
  cases l with
  | conn l => exact absurd h2 id
  | ctl l => exact ⟨m, l, hm, by simp [ctlExec, h1, ctlLab], h2⟩
  | connected ok => exact absurd h2 id

theorem conn_fair (ha : ∀ n, ¬ Sys.dead (e.st n)) (hf : FairSys e) : FairConn (connExec e) :=
  ⟨fun w => conn_fairly ha (hf.writer w), fun t => conn_fairly ha (hf.timer t), conn_fairly ha hf.reader,
    fun w => conn_fairly ha (hf.result w), fun u => conn_fairly ha (hf.take u), fun u => conn_fairly ha (hf.client u)⟩

theorem ctl_fair (ha : ∀ n, ¬ Sys.dead (e.st n)) (hf : FairSys e) : FairCtl (ctlExec e) := by
  refine ⟨ctl_fairly ha ?_ hf.disc, fun k => ctl_fairly ha ?_ (hf.deliver k), fun r j => ctl_fairly ha ?_ (hf.proc r j),
    ctl_fairly ha ?_ hf.saver, fun t n => ?_⟩
  · rintro f l ⟨a, rfl⟩; rfl
  · rintro f l rfl; rfl
  · rintro f l rfl; rfl
  · rintro f l ⟨a, rfl⟩; rfl
  · obtain ⟨m, hm, h⟩ := hf.time t n
    exact ⟨m, hm, .inl (h.resolve_right (ha m))⟩

/-- Once the process is gone it stays so. -/
theorem dead_stays {n m : Nat} (h : n ≤ m) (hd : Sys.dead (e.st n)) : Sys.dead (e.st m) := by
  refine exec_keep e (Q := Sys.dead) (fun s l s' hd hs => ?_) hd m h
  unfold sysStep at hs
  rw [if_pos] at hs
  · cases hs
  · rcases hd with h | h <;> simp [Option.isSome_iff_ne_none, h]

theorem alive_all (n : Nat) (h : ∀ m, n ≤ m → ¬ Sys.dead (e.st m)) (m : Nat) : ¬ Sys.dead (e.st m) := by
  intro hd
  exact h (n + m) (by omega) (dead_stays (by omega) hd)

theorem sor_dead {P : Sys → Prop} (n : Nat) (h : (∀ m, ¬ Sys.dead (e.st m)) → ∃ m, n ≤ m ∧ P (e.st m)) :
    ∃ m, n ≤ m ∧ (Sys.dead (e.st m) ∨ P (e.st m)) := by
  apply Classical.byContradiction
  intro hno
  obtain ⟨m, hm, hP⟩ := h (alive_all n fun m hm hd => hno ⟨m, hm, .inl hd⟩)
  exact hno ⟨m, hm, .inr hP⟩

/-! ### Reports go from the connection to the controller -/

theorem callbacks_step {s s' : St} {l : Label} (h : step lv s l = some s') :
    callbacks s' = callbacks s ++ (handed s l).toList := by
  have key : ∀ (h : List Ev) (x : Ev), (x :: h).reverse.filterMap (fun e => match e with
      | .callback n r => some (n, r)
      | _ => none) = h.reverse.filterMap (fun e => match e with
      | .callback n r => some (n, r)
      | _ => none) ++ (match x with
      | .callback n r => [(n, r)]
      | _ => []) := by
    intro h x
    rw [List.reverse_cons, List.filterMap_append]
    cases x <;> rfl
  unfold callbacks handed
  conn_step h
  all_goals first
    | (simp_all only [key, Option.toList, List.append_nil]; done)
    | (simp_all [key]; done)
    | skip

theorem arrivals_step {s s' : CSt} {l : CLabel} (h : cStep db s l = some s') :
    arrivals s'.hist = arrivals s.hist ++ (match l with
      | .arrive id r => [(id, r)]
      | _ => []) := by
  ctl_step h
  all_goals simp [put_hist, CSt.push, arrivals_cons]
  all_goals try (split <;> simp [arrivals_cons])

theorem joined_step {s s' : Sys} {l : SLabel} (h : sysStep lv db s l = some s')
    (hj : arrivals s.ctl.hist = callbacks s.conn) : arrivals s'.ctl.hist = callbacks s'.conn := by
  have h1 := conn_part h
  have h2 := ctl_part h
  cases l with
  | conn l =>
    simp only [connLab, ctlLab] at h1 h2
    rw [callbacks_step h1, ← hj]
    cases hh : handed s.conn l with
    | none => simp [hh] at h2; simp [h2]
    | some p => simp [hh] at h2; rw [arrivals_step h2]; rfl
  | ctl l =>
    simp only [connLab, ctlLab] at h1 h2
    have ho : ownStep s.result l = true := by
      unfold sysStep at h
      split at h
      · cases h
      simp only at h
      split at h
      · assumption
      · cases h
    rw [arrivals_step h2, h1, ← hj]
    cases l <;> simp [ownStep] at ho ⊢
  | connected ok =>
    simp only [connLab, ctlLab] at h1 h2
    rw [h1, h2, hj]

/-! ### After the discovery -/

/-- A report that has just arrived is about to be delivered. -/
theorem call_new {s s' : CSt} {l : CLabel} {k : Nat} {b : UInt8} {r : Report} (h : cStep db s l = some s')
    (h1 : arrivalOf k s.hist = none) (h2 : arrivalOf k s'.hist = some (b, r)) :
    s'.deliv k = .call b r ∧ k < s'.nDeliv := by
  ctl_step h
  all_goals try (simp [arrivalOf, h1] at h2; done)
  all_goals try (simp [put_hist, CSt.push, arrivalOf, h1] at h2; done)
  all_goals try (rw [put_hist] at h2; split at h2 <;> simp [arrivalOf, CSt.push, h1] at h2; done)
  simp only [arrivalOf] at h2
  split at h2
  · next hk => subst hk; cases h2; simp [updN]
  · rw [h1] at h2; cases h2

theorem arrival_keeps {s s' : CSt} {l : CLabel} (h : cStep db s l = some s') (k : Nat)
    (hl : ∀ id r, l ≠ .arrive id r) : arrivalOf k s'.hist = arrivalOf k s.hist := by
  ctl_step h
  all_goals try rfl
  all_goals try (exact absurd rfl (hl _ _))
  all_goals try (simp [put_hist, CSt.push, arrivalOf]; done)
  all_goals try (simp only [put_hist]; split <;> simp [arrivalOf])

theorem hist_mono {s s' : CSt} {l : CLabel} (h : cStep db s l = some s') {x : CEv} (hx : x ∈ s.hist) : x ∈ s'.hist := by
  ctl_step h
  all_goals try exact hx
  all_goals try exact List.mem_cons_of_mem _ hx
  all_goals try (simp [put_hist, CSt.push, hx]; done)
  all_goals try (simp only [put_hist]; split <;> simp [hx])

theorem mem_times {k ref : Nat} {r : Report} : ∀ {h : List CEv}, CEv.applied k ref r ∈ h → timesApplied k h ≠ 0
  | [], hm => by cases hm
  | e :: h, hm => by
    rcases List.mem_cons.1 hm with rfl | hm
    · simp [timesApplied]
    · have ih := mem_times hm
      cases e <;> simp only [timesApplied] <;> omega

/-- No more nodes are added. -/
theorem list_keeps {s s' : CSt} {l : CLabel} (h : cStep db s l = some s') (hd : s.disc = .done) : s'.list = s.list := by
  ctl_step h
  all_goals first
    | rfl
    | (simp_all; done)
    | (simp only [CSt.put, CSt.push]; split <;> rfl)

/-- A controller in which neither the discovery nor the saver was started. -/
structure Unstarted (s0 s : CSt) : Prop where
  disc : s.disc = .absent
  saver : s.saver = .absent
  list : s.list = s0.list
  save : ∀ t, CEv.save t ∉ s.hist

theorem unstarted_step {s0 s s' : CSt} {l : CLabel} (h : cStep db s l = some s') (hu : Unstarted s0 s)
    (h1 : l ≠ .startDisc) (h2 : l ≠ .startSaver) : Unstarted s0 s' := by
  obtain ⟨u1, u2, u3, u4⟩ := hu
  ctl_step h
  all_goals try (exact absurd rfl h1)
  all_goals try (exact absurd rfl h2)
  all_goals try (simp_all; done)
  all_goals try (exact ⟨u1, u2, u3, u4⟩)
  all_goals try (exact ⟨u1, u2, u3, fun t hm => by simp at hm; exact u4 t hm⟩)
  all_goals
    refine ⟨?_, ?_, ?_, ?_⟩
    · simp [u1]
    · simp [u2]
    · simp [u3]
    · intro t; simp only [put_hist]; split <;> simp [u4]

/-- The reader stays at rest as long as nothing is read and the port is not opened. -/
theorem rest_keeps {s s' : St} {l : Label} (h : step lv s l = some s') (hr : s.reader = .read ∨ s.reader = .down)
    (h1 : ∀ r, l ≠ .reader (.read r)) (h2 : l ≠ .connect true) : s'.reader = .read ∨ s'.reader = .down := by
  conn_step h
  all_goals try (simp_all; done)
  all_goals try (rcases hr with hr | hr <;> simp_all [ReaderAt.forget, closeStep]; done)

theorem session_keeps {ss : List (List Read)} {l : Label} (h1 : ∀ r, l ≠ .reader (.read r)) (h2 : l ≠ .connect true) :
    sessionStep ss l = ss := by
  unfold sessionStep
  split
  · exact absurd rfl h2
  · exact absurd rfl (h1 _)
  · rfl

/-! ### Fair executions exist -/

/-- A process in which nobody has anything to do, and time passes. -/
def sysTail (s : Sys) (n : Nat) : Sys := { s with ctl := { s.ctl with now := s.ctl.now + n } }

theorem sysTail_step {s : Sys} (h1 : s.conn.crashed = none) (h2 : s.ctl.crashed = none) (n : Nat) :
    sysStep lv db (sysTail s n) (.ctl (.tick 1)) = some (sysTail s (n + 1)) := by
  simp [sysStep, sysTail, h1, h2, ownStep, cStep]
  omega

theorem sys_fair {s0 s : Sys} {ls : List SLabel} (h : runSteps (sysStep lv db) s0 ls = some (sysTail s 0)) (h1 : s.conn.crashed = none)
    (h2 : s.ctl.crashed = none) (hq : Quiet lv s.conn) (hc : CQuiet s.ctl) :
    FairSys (execTail (sysStep lv db) s0 ls (sysTail s) (.ctl (.tick 1)) h (sysTail_step h1 h2)) := by
  have kc : ∀ A : Label → Prop, (∀ l, A l → step lv s.conn l = none) → ∀ l' n, onConn A l' →
      sysStep lv db (sysTail s n) l' = none := by
    intro A hA l' n hl
    cases l' with
    | conn l => simp [sysStep, sysTail, h1, h2, hA l hl]
    | ctl l => exact absurd hl id
    | connected ok => exact absurd hl id
  have kt : ∀ A : CLabel → Prop, (∀ l t, A l → cStep db { s.ctl with now := t } l = none) → ∀ l' n, onCtl A l' →
      sysStep lv db (sysTail s n) l' = none := by
    intro A hA l' n hl
    cases l' with
    | conn l => exact absurd hl id
    | ctl l =>
      have := hA l (s.ctl.now + n) hl
      simp only [h2] at this
      unfold sysStep
      simp only [sysTail, h1, h2, Option.isSome_none, Bool.or_self, Bool.false_eq_true, if_false]
      split
      · rw [this]; rfl
      · rfl
    | connected ok => exact absurd hl id
  obtain ⟨q1, q2, q3, q4⟩ := hc
  constructor
  · exact fun w => execTail_fairly _ _ (kc _ fun l hl => by rw [hl]; exact hq.writer w)
  · exact fun w => execTail_fairly _ _ (kc _ fun l hl => by rw [hl]; exact hq.timer w)
  · exact execTail_fairly _ _ (kc _ fun l hl => hq.reader l hl.1 hl.2)
  · exact fun w => execTail_fairly _ _ (kc _ fun l hl => by rw [hl]; exact hq.result w)
  · exact fun u => execTail_fairly _ _ (kc _ fun l ⟨w, hl⟩ => by rw [hl]; exact hq.take w u)
  · exact fun u => execTail_fairly _ _ (kc _ fun l ⟨op, hl⟩ => by rw [hl]; exact hq.client u op)
  · refine execTail_fairly _ _ (kt _ fun l t hl => ?_)
    obtain ⟨a, rfl⟩ := hl
    unfold cStep
    rcases q1 with q | q <;> simp [h2, discStep, q]
  · refine fun k => execTail_fairly _ _ (kt _ fun l t hl => ?_)
    subst hl
    unfold cStep
    rcases q2 k with q | q | q <;> simp [h2, deliverStep, q]
  · refine fun ref j => execTail_fairly _ _ (kt _ fun l t hl => ?_)
    subst hl
    unfold cStep
    simp only [h2, Option.isSome_none, Bool.false_eq_true, if_false]
    split
    · next hlt =>
      simp only [nodeStep]
      split
      · rfl
      rcases q3 ref j hlt with q | q <;> simp [procStep, q]
    · rfl
  · refine execTail_fairly _ _ (kt _ fun l t hl => ?_)
    obtain ⟨op, rfl⟩ := hl
    unfold cStep
    rcases q4 with q | q | ⟨q, q'⟩ <;> cases op <;> simp [h2, saverStep, q, *]
  · intro t n
    refine ⟨ls.length + n + t, by omega, .inl ?_⟩
    rw [execTail_end _ _ (by omega)]
    simp only [sysTail]
    omega

end Verif.Lemmas.System
