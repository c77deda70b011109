import Verif.Lemmas.CtlDisc

/-
Saving: what is pending is saved.
-/

set_option linter.unusedSimpArgs false
set_option linter.unusedVariables false
set_option maxHeartbeats 4000000

namespace Verif.Lemmas.Ctl

open Verif.Go Verif.Model Verif.Lemmas.NodeM Verif.Spec

/-- The saver is inside `SaveConfigurationToFile`. -/
def SaverAt.busy : SaverAt → Bool
  | .cmp | .cmpNodes _ | .copy | .iter | .enc _ | .write | .stuck => true
  | _ => false

structure SaveInv (f : Bool) (s : CSt) : Prop where
  file : s.hasFile = f
  pending : f = true → unsaved s.hist = true → 0 < s.nTrig ∨ (SaverAt.since s.saver).isSome = true
  last : f = true → ∀ t, lastTrigger s.hist = some t → s.saver = .window t
  busy : saving s.hist = SaverAt.busy s.saver

theorem s_push {f : Bool} {s : CSt} (h : SaveInv f s) (e : Event) : SaveInv f (s.push e) := by
  obtain ⟨h1, h2, h3, h4⟩ := h
  cases e with
  | discovered id => exact ⟨h1, h2, h3, h4⟩
  | updated id =>
    refine ⟨h1, fun _ _ => ?_, h3, h4⟩
    left
    simp only [CSt.push]
    omega

theorem s_congr {f : Bool} {s s' : CSt} (h : SaveInv f s) (h1 : s'.hist = s.hist) (h2 : s'.nTrig = s.nTrig)
    (h3 : s'.saver = s.saver) (h4 : s'.hasFile = s.hasFile) : SaveInv f s' := by
  obtain ⟨a, b, c, d⟩ := h
  exact ⟨by rw [h4]; exact a, by rw [h1, h2, h3]; exact b, by rw [h1, h3]; exact c, by rw [h1, h3]; exact d⟩

theorem s_put {f : Bool} {s : CSt} (h : SaveInv f s) (ref : Nat) (n : NSt) : SaveInv f (s.put ref n) := by
  unfold CSt.put
  simp only
  split
  · apply s_push; exact s_congr h rfl rfl rfl rfl
  · exact s_congr h rfl rfl rfl rfl

theorem s_step {db : DB} {f : Bool} {s s' : CSt} {l : CLabel} (hi : SaveInv f s) (h : cStep db s l = some s') :
    SaveInv f s' := by
  have hi' := hi
  obtain ⟨k1, k2, k3, k4⟩ := hi'
  ctl_step h
  all_goals first
    | exact hi
    | exact ⟨k1, k2, k3, k4⟩
    | exact s_put hi _ _
    | exact s_congr (s_put hi _ _) rfl rfl rfl rfl
    | exact s_congr (s_push hi _) rfl rfl rfl rfl
    | (refine s_congr (s_put (s := { s with hist := _ :: s.hist }) ?_ _ _) rfl rfl rfl rfl
       exact ⟨k1, k2, k3, k4⟩)
    | (constructor <;> first
        | assumption
        | grind [unsaved, saving, lastTrigger, SaverAt.since, SaverAt.busy])

theorem s_loads {f : Bool} {ns : List Node} : ∀ {s : CSt}, SaveInv f s → SaveInv f (s.loadNodes ns) := by
  induction ns with
  | nil => intro s h; exact h
  | cons n ns ih =>
    intro s h
    refine ih ?_
    unfold CSt.loadNode
    apply s_push; exact s_congr h rfl rfl rfl rfl

theorem saveInv {db : DB} {f : Bool} {ns : List Node} {s : CSt} (h : CReach db f ns s) : SaveInv f s := by
  obtain ⟨ls, h⟩ := h
  exact crun_induct (fun _ _ _ => s_step) ls _ _
    (s_loads ⟨rfl, by simp [newController, unsaved], by simp [newController, lastTrigger],
      by simp [newController, saving, SaverAt.busy]⟩) h

/-! ### The saver comes to rest -/

/-- How many steps the saver can still take before something is updated. -/
def saverLeft (s : CSt) : Nat :=
  match s.saver with
  | .absent | .stuck => 0
  | .idle => s.nTrig * (s.list.length + s.list.length + 10)
  | .window _ => s.nTrig * (s.list.length + s.list.length + 10) + s.list.length + s.list.length + 9
  | .cmp => s.nTrig * (s.list.length + s.list.length + 10) + s.list.length + s.list.length + 8
  | .cmpNodes todo => s.nTrig * (s.list.length + s.list.length + 10) + s.list.length + todo.length + 6
  | .copy => s.nTrig * (s.list.length + s.list.length + 10) + s.list.length + 5
  | .iter => s.nTrig * (s.list.length + s.list.length + 10) + s.list.length + 4
  | .enc todo => s.nTrig * (s.list.length + s.list.length + 10) + todo.length + 2
  | .write => s.nTrig * (s.list.length + s.list.length + 10) + 1

@[simp] theorem updates_push (s : CSt) (id : Int) : updates (s.push (.updated id)).hist = updates s.hist + 1 := rfl

theorem put_updates (s : CSt) (ref : Nat) (n : NSt) :
    updates (s.put ref n).hist = updates s.hist ∧ (s.put ref n).nTrig = s.nTrig ∨
      updates (s.put ref n).hist = updates s.hist + 1 := by
  unfold CSt.put; simp only; split
  · right; rfl
  · left; exact ⟨rfl, rfl⟩

/-- A step of the saver. -/
def isSaver : CLabel → Bool
  | .saver _ => true
  | _ => false

/-- Without updates, and after the discovery, the steps of the saver use up `saverLeft`; other steps leave
it alone. -/
theorem left_step {db : DB} {s s' : CSt} {l : CLabel} (hd : s.disc = .done) (ha : s.saver ≠ .absent)
    (h : cStep db s l = some s') :
    updates s.hist ≤ updates s'.hist ∧ s'.disc = .done ∧ s'.saver ≠ .absent ∧ s'.list = s.list ∧
    (s.saver ≠ .stuck → s'.saver ≠ .stuck) ∧
    (updates s'.hist = updates s.hist →
      saverLeft s' + (if isSaver l then 1 else 0) ≤ saverLeft s) := by
  have hl : s.disc.locks = false := by rw [hd]; rfl
  have hw : s.disc.writes = false := by rw [hd]; rfl
  have nodeCase : ∀ (t : CSt) (ref : Nat) (n : NSt) (u : CSt), t.disc = s.disc → t.saver = s.saver → t.list = s.list →
      t.nTrig = s.nTrig → updates t.hist = updates s.hist → u.disc = (t.put ref n).disc →
      u.saver = (t.put ref n).saver → u.list = (t.put ref n).list → u.nTrig = (t.put ref n).nTrig →
      u.hist = (t.put ref n).hist →
      updates s.hist ≤ updates u.hist ∧ u.disc = .done ∧ u.saver ≠ .absent ∧ u.list = s.list ∧
      (s.saver ≠ .stuck → u.saver ≠ .stuck) ∧ (updates u.hist = updates s.hist → saverLeft u + 0 ≤ saverLeft s) := by
    intro t ref n u e1 e2 e3 e4 e5 g1 g2 g3 g4 g5
    rw [put_disc] at g1; rw [put_saver] at g2; rw [put_list] at g3
    rcases put_updates t ref n with ⟨p1, p2⟩ | p1
    · refine ⟨by rw [g5, p1, e5]; exact Nat.le_refl _, by rw [g1, e1, hd], by rw [g2, e2]; exact ha, by rw [g3, e3],
        by rw [g2, e2]; exact id, fun _ => ?_⟩
      unfold saverLeft
      rw [g2, g3, g4, p2, e2, e3, e4]
      exact Nat.le_refl _
    · refine ⟨by rw [g5, p1, e5]; omega, by rw [g1, e1, hd], by rw [g2, e2]; exact ha, by rw [g3, e3],
        by rw [g2, e2]; exact id, fun hu => ?_⟩
      rw [g5, p1, e5] at hu; omega
  have hlen : (s.list.map Prod.snd).length = s.list.length := by simp
  ctl_step h
  all_goals first
    | exact ⟨Nat.le_refl _, hd, ha, rfl, fun h => h, fun _ => Nat.le_refl _⟩
    | (rw [hd] at *; cases ‹DiscAt.done = _›; done)
    | exact nodeCase s _ _ _ rfl rfl rfl rfl rfl rfl rfl rfl rfl rfl
    | exact nodeCase { s with hist := _ :: s.hist } _ _ _ rfl rfl rfl rfl rfl rfl rfl rfl rfl rfl
    | (exfalso; simp_all; done)
    | (refine ⟨Nat.le_refl _, hd, by simp, rfl, by simp [*], fun _ => ?_⟩
       simp only [saverLeft, isSaver, *, if_true, List.length_cons, List.length_nil]
       first
       | omega
       | (obtain ⟨m, hm⟩ : ∃ m, s.nTrig = m + 1 := ⟨s.nTrig - 1, by omega⟩
          rw [hm, Nat.add_sub_cancel, Nat.succ_mul m]
          omega))

/-- The number of steps the saver takes in a run. -/
def saverSteps (ls : List CLabel) : Nat := ls.countP isSaver

theorem left_run {db : DB} : ∀ (ls : List CLabel) (s s' : CSt), s.disc = .done → s.saver ≠ .absent →
    cRun db s ls = some s' → updates s.hist ≤ updates s'.hist ∧ s'.disc = .done ∧ s'.saver ≠ .absent ∧
      s'.list = s.list ∧ (s.saver ≠ .stuck → s'.saver ≠ .stuck) ∧
      (updates s'.hist = updates s.hist → saverLeft s' + saverSteps ls ≤ saverLeft s) := by
  intro ls
  induction ls with
  | nil => intro s s' hd ha h; cases h; exact ⟨Nat.le_refl _, hd, ha, rfl, fun h => h, fun _ => Nat.le_refl _⟩
  | cons l ls ih =>
    intro s s' hd ha h
    simp only [cRun] at h
    cases hl : cStep db s l with
    | none => rw [hl] at h; cases h
    | some s1 =>
      rw [hl] at h
      obtain ⟨a1, a2, a3, a4, a5, a6⟩ := left_step hd ha hl
      obtain ⟨b1, b2, b3, b4, b5, b6⟩ := ih s1 s' a2 a3 h
      refine ⟨by omega, b2, b3, by rw [b4, a4], fun h => b5 (a5 h), fun hu => ?_⟩
      have c1 := b6 (by omega)
      have c2 := a6 (by omega)
      simp only [saverSteps, List.countP_cons] at *
      omega

end Verif.Lemmas.Ctl
