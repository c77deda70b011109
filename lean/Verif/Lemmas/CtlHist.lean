import Verif.Lemmas.Ctl
import Verif.Spec.Ctl

/-
The histories of the controller: queue, triggers, saves, applied reports.
-/

set_option linter.unusedSimpArgs false
set_option linter.unusedVariables false
set_option maxHeartbeats 4000000

namespace Verif.Lemmas.Ctl

open Verif.Go Verif.Model Verif.Lemmas.NodeM Verif.Spec

/-! ### The queue -/

/-- Queue and history agree. -/
structure QInv (s : CSt) : Prop where
  fifo : Fifo 10 s.hist s.queue
  len : s.queue.length ≤ 10

theorem q_push {s : CSt} (h : QInv s) (e : Event) : QInv (s.push e) := by
  obtain ⟨h1, h2⟩ := h
  unfold CSt.push queCap
  by_cases hl : s.queue.length < 10
  · refine ⟨?_, ?_⟩
    · simp only [hl, decide_true, if_true]
      exact .accept e h1 hl
    · simp [hl]; omega
  · refine ⟨?_, ?_⟩
    · simp only [hl, decide_false, Bool.false_eq_true, if_false]
      exact .drop e h1 (by omega)
    · simp [hl]; omega

theorem q_congr {s s' : CSt} (h : QInv s) (h1 : s'.hist = s.hist) (h2 : s'.queue = s.queue) : QInv s' := by
  obtain ⟨a, b⟩ := h
  exact ⟨by rw [h1, h2]; exact a, by rw [h2]; exact b⟩

theorem q_put {s : CSt} (h : QInv s) (ref : Nat) (n : NSt) : QInv (s.put ref n) := by
  unfold CSt.put
  simp only
  split
  · apply q_push; exact q_congr h rfl rfl
  · exact q_congr h rfl rfl

theorem q_step {db : DB} {s s' : CSt} {l : CLabel} (hi : QInv s) (h : cStep db s l = some s') : QInv s' := by
  have hi' := hi
  obtain ⟨k1, k2⟩ := hi'
  ctl_step h
  all_goals first
    | exact hi
    | exact ⟨k1, k2⟩
    | exact q_put hi _ _
    | exact q_congr (q_put hi _ _) rfl rfl
    | exact q_congr (q_push hi _) rfl rfl
    | exact q_congr (q_put (s := { s with hist := _ :: s.hist }) ⟨.applied _ _ _ k1, k2⟩ _ _) rfl rfl
    | exact ⟨.reply _ k1, k2⟩
    | exact ⟨.arrived _ _ _ k1, k2⟩
    | exact ⟨.trigger _ k1, k2⟩
    | exact ⟨.save _ k1, k2⟩
    | exact ⟨.saved k1, k2⟩
    | (have e := (by assumption : CSt.queue s = _)
       rw [e] at k1 k2
       exact ⟨.take _ k1, by simp at k2 ⊢; omega⟩)

theorem q_load {s : CSt} (h : QInv s) (n : Node) : QInv (s.loadNode n) := by
  unfold CSt.loadNode
  apply q_push; exact q_congr h rfl rfl

theorem q_loads {ns : List Node} : ∀ {s : CSt}, QInv s → QInv (s.loadNodes ns) := by
  induction ns with
  | nil => intro s h; exact h
  | cons n ns ih => intro s h; exact ih (q_load h n)

theorem qInv {db : DB} {f : Bool} {ns : List Node} {s : CSt} (h : CReach db f ns s) : QInv s := by
  obtain ⟨ls, h⟩ := h
  exact crun_induct (fun _ _ _ => q_step) ls _ _ (q_loads ⟨.nil, by simp [newController]⟩) h

theorem fifo_order {cap : Nat} {h : List CEv} {q : List Event} (hf : Fifo cap h q) :
    accepted h = taken h ++ q := by
  induction hf with
  | nil => rfl
  | accept e _ _ ih => simp [accepted, taken, ih]
  | drop e _ _ ih => simp [accepted, taken, ih]
  | take e _ ih => simp [accepted, taken, ih]
  | _ => simp only [accepted, taken]; assumption

/-! ### The saver -/

/-- The saver is in its `select`. -/
def SaverAt.since : SaverAt → Option Nat
  | .window t => some t
  | _ => none

structure TrigInv (s : CSt) : Prop where
  count : updates s.hist = triggers s.hist + s.nTrig
  window : ∀ t, SaverAt.since s.saver = some t → lastTrigger s.hist = some t ∧ t ≤ s.now
  fewer : saves s.hist + (if (SaverAt.since s.saver).isSome then 1 else 0) ≤ triggers s.hist
  ok : SavesOk s.hist

theorem t_push {s : CSt} (h : TrigInv s) (e : Event) : TrigInv (s.push e) := by
  obtain ⟨h1, h2, h3, h4⟩ := h
  cases e with
  | discovered id => exact ⟨h1, h2, h3, h4⟩
  | updated id =>
    refine ⟨?_, h2, h3, h4⟩
    simp only [CSt.push, updates, triggers]
    omega

theorem t_congr {s s' : CSt} (h : TrigInv s) (h1 : s'.hist = s.hist) (h2 : s'.nTrig = s.nTrig)
    (h3 : s'.saver = s.saver) (h4 : s'.now = s.now) : TrigInv s' := by
  obtain ⟨a, b, c, d⟩ := h
  refine ⟨by rw [h1, h2]; exact a, by rw [h1, h3, h4]; exact b, by rw [h1, h3]; exact c, by rw [h1]; exact d⟩

theorem t_put {s : CSt} (h : TrigInv s) (ref : Nat) (n : NSt) : TrigInv (s.put ref n) := by
  unfold CSt.put
  simp only
  split
  · apply t_push; exact t_congr h rfl rfl rfl rfl
  · exact t_congr h rfl rfl rfl rfl

theorem t_step {db : DB} {s s' : CSt} {l : CLabel} (hi : TrigInv s) (h : cStep db s l = some s') :
    TrigInv s' := by
  have hi' := hi
  obtain ⟨k1, k2, k3, k4⟩ := hi'
  ctl_step h
  all_goals first
    | exact hi
    | exact ⟨k1, k2, k3, k4⟩
    | exact t_put hi _ _
    | exact t_congr (t_put hi _ _) rfl rfl rfl rfl
    | exact t_congr (t_push hi _) rfl rfl rfl rfl
    | (refine t_congr (t_put (s := { s with hist := _ :: s.hist }) ?_ _ _) rfl rfl rfl rfl
       exact ⟨k1, k2, k3, k4⟩)
    | (constructor <;> first
        | assumption
        | grind [updates, triggers, saves, lastTrigger, SavesOk, SaverAt.since, quiet])

theorem t_loads {ns : List Node} : ∀ {s : CSt}, TrigInv s → TrigInv (s.loadNodes ns) := by
  induction ns with
  | nil => intro s h; exact h
  | cons n ns ih =>
    intro s h
    refine ih ?_
    unfold CSt.loadNode
    apply t_push; exact t_congr h rfl rfl rfl rfl

theorem trigInv {db : DB} {f : Bool} {ns : List Node} {s : CSt} (h : CReach db f ns s) : TrigInv s := by
  obtain ⟨ls, h⟩ := h
  exact crun_induct (fun _ _ _ => t_step) ls _ _
    (t_loads ⟨by simp [newController, updates, triggers], by simp [newController, SaverAt.since],
      by simp [newController, SaverAt.since, saves], by simp [newController, SavesOk]⟩) h

end Verif.Lemmas.Ctl
