import Verif.Lemmas.ProcessNode

/-
Fair executions of the joined process exist: after a finite run nobody has anything to do and time passes.
-/

set_option linter.unusedSimpArgs false
set_option linter.unusedVariables false
set_option maxHeartbeats 1000000

namespace Verif.Lemmas.Process

open Verif.Go Verif.Model Verif.Model.Conn Verif.Spec Verif.Lemmas Verif.Lemmas.Conn Verif.Lemmas.Ctl Verif.Lemmas.NodeM
  Verif.Lemmas.EndToEnd Verif.Lemmas.System

variable {lv : LoopVars} {db : DB} {f : Bool} {ns : List Node}

def wTail (w : Whole) (n : Nat) : Whole := { w with sys := sysTail w.sys n }

theorem wTail_step {w : Whole} (h1 : w.sys.conn.crashed = none) (h2 : w.sys.ctl.crashed = none) (n : Nat) :
    wStep lv db (wTail w n) (.sys (.ctl (.tick 1))) = some (wTail w (n + 1)) := by
  simp only [wStep, Whole.may, if_true, wTail, sysTail_step h1 h2, Option.map_some, Whole.after]

/-- Nobody has anything to do: but the discovery may wait for an answer that does not come. -/
structure WQuiet (lv : LoopVars) (w : Whole) : Prop where
  conn : Quiet lv w.sys.conn
  want : ∀ who, w.want who = none
  disc : w.sys.ctl.disc = .absent ∨ w.sys.ctl.disc = .done ∨ w.sys.ctl.disc = .wait ∧ ∀ a, w.mayDisc a = false
  deliver : ∀ k, w.sys.ctl.deliv k = .absent ∨ w.sys.ctl.deliv k = .done ∨ w.sys.ctl.deliv k = .stuck
  ident : ∀ ref i, ref < w.sys.ctl.nHeap → (w.sys.ctl.heap ref).ident i = .absent ∨ (w.sys.ctl.heap ref).ident i = .done
  proc : ∀ ref j, ref < w.sys.ctl.nHeap → (w.sys.ctl.heap ref).proc j = .absent ∨ (w.sys.ctl.heap ref).proc j = .done
  saver : w.sys.ctl.saver = .absent ∨ w.sys.ctl.saver = .stuck ∨ w.sys.ctl.saver = .idle ∧ w.sys.ctl.nTrig = 0

theorem w_fair {w0 w : Whole} {ls : List WLabel} (h : runSteps (wStep lv db) w0 ls = some (wTail w 0))
    (h1 : w.sys.conn.crashed = none) (h2 : w.sys.ctl.crashed = none) (hq : WQuiet lv w) :
    FairWhole (execTail (wStep lv db) w0 ls (wTail w) (.sys (.ctl (.tick 1))) h (wTail_step h1 h2)) := by
  have kc : ∀ A : Label → Prop, (∀ l, A l → step lv w.sys.conn l = none) → ∀ l' n, onSys (onConn A) l' →
      wStep lv db (wTail w n) l' = none := by
    intro A hA l' n hl
    cases l' with
    | ask who => exact absurd hl id
    | sys l' =>
      cases l' with
      | conn l => simp [wStep, Whole.may, wTail, sysStep, sysTail, h1, h2, hA l hl]
      | ctl l => exact absurd hl id
      | connected ok => exact absurd hl id
  have kt : ∀ A : CLabel → Prop, (∀ l t, A l → w.may (.ctl l) = false ∨ cStep db { w.sys.ctl with now := t } l = none) →
      ∀ l' n, onSys (onCtl A) l' → wStep lv db (wTail w n) l' = none := by
    intro A hA l' n hl
    cases l' with
    | ask who => exact absurd hl id
    | sys l' =>
      cases l' with
      | conn l => exact absurd hl id
      | ctl l =>
        have hm : (wTail w n).may (.ctl l) = w.may (.ctl l) := by
          unfold Whole.may
          split <;> rfl
        simp only [wStep, hm]
        split
        · next hmay =>
          rcases hA l (w.sys.ctl.now + n) hl with h | h
          · rw [h] at hmay; cases hmay
          · unfold sysStep
            simp only [h2] at h
            simp only [wTail, sysTail, h1, h2, Option.isSome_none, Bool.or_self, Bool.false_eq_true, if_false, h, Option.map_none,
              ite_self]
        · rfl
      | connected ok => exact absurd hl id
  obtain ⟨q0, qw, q1, q2, q5, q3, q4⟩ := hq
  constructor
  · exact fun w => execTail_fairly _ _ (kc _ fun l hl => by rw [hl]; exact q0.writer w)
  · exact fun w => execTail_fairly _ _ (kc _ fun l hl => by rw [hl]; exact q0.timer w)
  · exact execTail_fairly _ _ (kc _ fun l hl => q0.reader l hl.1 hl.2)
  · exact fun w => execTail_fairly _ _ (kc _ fun l hl => by rw [hl]; exact q0.result w)
  · exact fun u => execTail_fairly _ _ (kc _ fun l ⟨w, hl⟩ => by rw [hl]; exact q0.take w u)
  · exact fun u => execTail_fairly _ _ (kc _ fun l ⟨op, hl⟩ => by rw [hl]; exact q0.client u op)
  · refine fun who => execTail_fairly _ _ fun l n hl => ?_
    subst hl
    simp [wStep, wTail, qw who]
  · refine execTail_fairly _ _ (kt _ fun l t hl => ?_)
    obtain ⟨a, rfl⟩ := hl
    unfold cStep
    rcases q1 with q | q | ⟨q, q'⟩
    · simp [h2, discStep, q]
    · simp [h2, discStep, q]
    · exact .inl (q' a)
  · refine fun k => execTail_fairly _ _ (kt _ fun l t hl => .inr ?_)
    subst hl
    unfold cStep
    rcases q2 k with q | q | q <;> simp [h2, deliverStep, q]
  · refine fun ref i => execTail_fairly _ _ (kt _ fun l t hl => .inr ?_)
    obtain ⟨a, rfl⟩ := hl
    unfold cStep
    simp only [h2, Option.isSome_none, Bool.false_eq_true, if_false]
    split
    · next hlt =>
      simp only [nodeStep]
      split
      · rfl
      rcases q5 ref i hlt with q | q <;> simp [identStep, q]
    · rfl
  · refine fun ref j => execTail_fairly _ _ (kt _ fun l t hl => .inr ?_)
    subst hl
    unfold cStep
    simp only [h2, Option.isSome_none, Bool.false_eq_true, if_false]
    split
    · next hlt =>
      simp only [nodeStep]
      split
      · rfl
      rcases q3 ref j hlt with q | q <;> simp [procStep, q]
    · rfl
  · refine execTail_fairly _ _ (kt _ fun l t hl => .inr ?_)
    obtain ⟨op, rfl⟩ := hl
    unfold cStep
    rcases q4 with q | q | ⟨q, q'⟩ <;> cases op <;> simp [h2, saverStep, q, *]
  · intro t n
    refine ⟨ls.length + n + t, by omega, .inl ?_⟩
    rw [execTail_end _ _ (by omega)]
    simp only [wTail, sysTail]
    omega

/-! ### Rest, computed -/

/-- What an identification wants it has said in a step of its own. -/
theorem want_from : ∀ (ls : List WLabel) (w0 w : Whole), runSteps (wStep lv db) w0 ls = some w → ∀ ref i,
    w.want (.ident ref i) ≠ none → w0.want (.ident ref i) ≠ none ∨ ∃ a, .sys (.ctl (.node ref (.ident i a))) ∈ ls := by
  intro ls
  induction ls with
  | nil => intro w0 w h ref i hw; cases h; exact .inl hw
  | cons l ls ih =>
    intro w0 w h ref i hw
    simp only [runSteps] at h
    cases hl : wStep lv db w0 l with
    | none => rw [hl] at h; cases h
    | some w1 =>
      rw [hl] at h
      rcases ih w1 w h ref i hw with g | ⟨a, g⟩
      · cases l with
        | ask who =>
          simp only [wStep] at hl
          split at hl
          · cases hl
          · rw [Option.map_eq_some_iff] at hl
            obtain ⟨s, -, rfl⟩ := hl
            refine .inl fun h => g ?_
            simp only [updW]
            split
            · rfl
            · exact h
        | sys l =>
          simp only [wStep] at hl
          split at hl
          · rw [Option.map_eq_some_iff] at hl
            obtain ⟨s, -, rfl⟩ := hl
            unfold Whole.after at g
            split at g
            · exact .inl (by simpa [updW] using g)
            · next ref' i' a _ =>
              simp only [updW] at g
              split at g
              · next he => cases he; exact .inr ⟨_, by simp; exact .inl rfl⟩
              · exact .inl g
            · exact .inl g
          · cases hl
      · exact .inr ⟨a, by simp [g]⟩

/-- The identifications that make steps. -/
def identsOf (ls : List WLabel) : List (Nat × Nat) :=
  ls.filterMap fun l => match l with
    | .sys (.ctl (.node ref (.ident i _))) => some (ref, i)
    | _ => none

def discRestB (w : Whole) : Bool :=
  decide (w.sys.ctl.disc = .absent ∨ w.sys.ctl.disc = .done) ||
    decide (w.sys.ctl.disc = .wait) && match w.req .disc with
      | some u => (heard w.sys.conn u).isNone
      | none => true

/-- Nobody has anything to do, computed. -/
def wRestB (ls : List WLabel) (w : Whole) : Bool :=
  restB w.sys.conn && (w.want .disc).isNone && (identsOf ls).all (fun p => (w.want (.ident p.1 p.2)).isNone) &&
  discRestB w && cRestB { w.sys.ctl with disc := .done } &&
  (List.range w.sys.ctl.nHeap).all (fun ref => (List.range (w.sys.ctl.heap ref).nIdent).all fun i =>
    decide ((w.sys.ctl.heap ref).ident i = .absent ∨ (w.sys.ctl.heap ref).ident i = .done))

theorem wquiet_of_rest {ls : List WLabel} {w : Whole} (hg : GoodFile ns)
    (h : runSteps (wStep lv db) (wStart f ns) ls = some w) (hb : wRestB ls w = true) : WQuiet lv w := by
  obtain ⟨⟨cls, hcr, -⟩, hr⟩ := run_parts h
  have hc := cinv hg hr
  simp only [wRestB, Bool.and_eq_true, List.all_eq_true, List.mem_range, decide_eq_true_eq, Option.isNone_iff_eq_none, cRestB] at hb
  obtain ⟨⟨⟨⟨⟨b1, b2⟩, b3⟩, b4⟩, ⟨⟨-, b5⟩, b6⟩, b7⟩, b8⟩ := hb
  refine ⟨quiet_of_restB ⟨cls, hcr⟩ b1, fun who => ?_, ?_, fun k => ?_, fun ref i hlt => ?_, fun ref j hlt => ?_, b7⟩
  · cases who with
    | disc => exact b2
    | ident ref i =>
      apply Classical.byContradiction
      intro hw
      rcases want_from ls _ _ h ref i hw with g | ⟨a, g⟩
      · exact g rfl
      · refine hw (b3 (ref, i) ?_)
        simp only [identsOf, List.mem_filterMap]
        exact ⟨_, g, rfl⟩
  · simp only [discRestB, Bool.or_eq_true, Bool.and_eq_true, decide_eq_true_eq] at b4
    rcases b4 with (b | b) | ⟨b, b'⟩
    · exact .inl b
    · exact .inr (.inl b)
    · refine .inr (.inr ⟨b, fun a => ?_⟩)
      simp only [Whole.mayDisc, b, ne_eq, not_true_eq_false, decide_false, Bool.false_or]
      split at b'
      · next u hu =>
        rw [Option.isNone_iff_eq_none] at b'
        simp [hu, b']
      · next hu => simp [hu]
  · by_cases hk : k < w.sys.ctl.nDeliv
    · exact b5 k hk
    · exact .inl (hc.fresh k (by omega))
  · by_cases hi : i < (w.sys.ctl.heap ref).nIdent
    · exact b8 ref hlt i hi
    · exact .inl ((hc.safe ref hlt).wake.fresh i (by omega))
  · by_cases hj : j < (w.sys.ctl.heap ref).nProc
    · exact b6 ref hlt j hj
    · exact .inl ((hc.safe ref hlt).wake.freshP j (by omega))

/-- The execution made from a run that comes to rest. -/
theorem rest_exec {ls : List WLabel} (hg : GoodFile ns)
    (hv : (runSteps (wStep lv db) (wStart f ns) ls).map (fun w =>
      wRestB ls w && w.sys.conn.crashed.isNone && w.sys.ctl.crashed.isNone) = some true) :
    ∃ (e : Exec (wStep lv db)) (w : Whole), FairWhole e ∧ e.st 0 = wStart f ns ∧ (∀ n, ¬ Sys.dead (e.st n).sys) ∧
      (∀ n, n ≤ ls.length → runSteps (wStep lv db) (wStart f ns) (ls.take n) = some (e.st n)) ∧
      (∀ n, n < ls.length → e.lab n = ls[n]?) ∧ (∀ n, ls.length ≤ n → e.lab n = some (.sys (.ctl (.tick 1)))) ∧
      runSteps (wStep lv db) (wStart f ns) ls = some w ∧ ∀ n, ls.length ≤ n → e.st n = wTail w (n - ls.length) := by
  cases hr : runSteps (wStep lv db) (wStart f ns) ls with
  | none => rw [hr] at hv; cases hv
  | some w =>
    rw [hr] at hv
    simp only [Option.map_some, Option.some.injEq, Bool.and_eq_true, Option.isNone_iff_eq_none] at hv
    obtain ⟨⟨v1, v3⟩, v4⟩ := hv
    have hr0 : runSteps (wStep lv db) (wStart f ns) ls = some (wTail w 0) := hr
    let e := execTail (wStep lv db) (wStart f ns) ls (wTail w) (.sys (.ctl (.tick 1))) hr0 (wTail_step v3 v4)
    have hend : ∀ n, ls.length ≤ n → e.st n = wTail w (n - ls.length) := fun n hn => execTail_end hr0 _ hn
    have hmid : ∀ n, n ≤ ls.length → runSteps (wStep lv db) (wStart f ns) (ls.take n) = some (e.st n) := by
      intro n hn
      by_cases hlt : n < ls.length
      · have : ∃ t, runSteps (wStep lv db) (wStart f ns) (ls.take n) = some t := by
          have h1 : runSteps (wStep lv db) (wStart f ns) (ls.take n ++ ls.drop n) = some w := by rw [List.take_append_drop]; exact hr
          rw [runSteps_append] at h1
          cases hx : runSteps (wStep lv db) (wStart f ns) (ls.take n) with
          | none => rw [hx] at h1; cases h1
          | some t => exact ⟨t, rfl⟩
        obtain ⟨t, ht⟩ := this
        rw [ht, show e.st n = t from execTail_mid hr0 _ hlt ht]
      · have : n = ls.length := by omega
        subst this
        rw [List.take_length, hr, hend _ (Nat.le_refl _), Nat.sub_self]
        rfl
    refine ⟨e, w, w_fair hr0 v3 v4 (wquiet_of_rest hg hr v1), ?_, ?_, hmid, ?_, ?_, rfl, hend⟩
    · have := hmid 0 (Nat.zero_le _)
      simp only [List.take_zero, runSteps, Option.some.injEq] at this
      exact this.symm
    · intro n hd
      have h1 := dead_stays (e := sysExec e) (n := n) (m := n + ls.length) (by omega) hd
      have h2 : Sys.dead (e.st (n + ls.length)).sys := h1
      rw [hend _ (by omega)] at h2
      rcases h2 with h2 | h2
      · exact h2 v3
      · exact h2 v4
    · intro n hn
      simp only [e, execTail, if_pos hn, List.getElem?_eq_getElem hn, Option.getD_some]
    · intro n hn
      simp only [e, execTail, if_neg (Nat.not_lt.2 hn)]

end Verif.Lemmas.Process
