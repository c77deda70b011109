import Verif.Lemmas.Fair
import Verif.Lemmas.CtlMore
import Verif.Spec.CtlFair

/-
Fair executions of a controller.
-/

set_option linter.unusedSimpArgs false
set_option linter.unusedVariables false
set_option maxHeartbeats 4000000

namespace Verif.Lemmas.Ctl

open Verif.Go Verif.Model Verif.Spec Verif.Lemmas Verif.Lemmas.NodeM

variable {db : DB} {f : Bool} {ns : List Node} {e : Exec (cStep db)}

theorem cexec_reach (hr : CReach db f ns (e.st 0)) (n : Nat) : CReach db f ns (e.st n) :=
  exec_keep e (Q := CReach db f ns) (fun _ _ _ h hs => creach_step h hs) hr n (Nat.zero_le _)

theorem crash_end {s s' : CSt} {l : CLabel} (hs : cStep db s l = some s') : s.crashed = none := by
  unfold cStep at hs
  split at hs
  · cases hs
  · next h => simpa using h

theorem calive_before (n : Nat) (hn : ∀ m, n ≤ m → (e.st m).crashed = none) : ∀ m, (e.st m).crashed = none := by
  intro m
  by_cases hm : n ≤ m
  · exact hn m hm
  · apply Classical.byContradiction
    intro hc
    have := exec_keep e (Q := fun s => s.crashed ≠ none) (n := m) (fun s l s' h hs => absurd (crash_end hs) h) hc n (by omega)
    exact this (hn n (Nat.le_refl _))

/-! ### The discovery -/

theorem disc_ends (hf : FairCtl e) (hg : GoodFile ns) (hr : CReach db f ns (e.st 0)) (hn : ∀ n, (e.st n).crashed = none)
    (n : Nat) (h1 : DiscAt.before (e.st n).disc = false) : ∃ m, n ≤ m ∧ (e.st m).disc = .done := by
  by_cases h2 : (e.st n).disc = .done
  · exact ⟨n, Nat.le_refl _, h2⟩
  refine leads_rank e hf.disc (Q := fun s => DiscAt.before s.disc = false ∧ s.disc ≠ .done) (R := fun s => s.disc = .done)
    (fun s => discLeft s.disc) (n0 := n) ?_ ?_ (Nat.le_refl _) ⟨h1, h2⟩
  · intro m hm hq l hs
    by_cases h3 : (e.st (m + 1)).disc = .done
    · exact .inl h3
    · obtain ⟨g1, g2⟩ := disc_left hq.1 hs
      refine .inr ⟨⟨g1, h3⟩, ?_, ?_⟩
      · split at g2 <;> omega
      · rintro ⟨a, rfl⟩
        simp only [isDisc, if_true] at g2
        omega
  · intro m hm hq
    have hq := hq m (Nat.le_refl _)
    obtain ⟨s', hs⟩ := disc_enabled (db := db) (cinv hg (cexec_reach hr m)) (hn m) (by intro h; rw [h] at hq; cases hq.1) hq.2 .nothing
    exact ⟨m, Nat.le_refl _, _, _, ⟨_, rfl⟩, hs⟩

theorem wait_moves {s s' : CSt} {l : CLabel} (hw : s.disc = .wait) (h : cStep db s l = some s') :
    DiscAt.before s'.disc = false ∨ s'.disc = .wait ∧ ¬ ∃ a, l = .disc a := by
  by_cases hs : l = .startDisc
  · subst hs
    unfold cStep at h
    split at h
    · cases h
    simp [hw] at h
  by_cases hd : ∀ a, l ≠ .disc a
  · exact .inr ⟨(other_step h hd hs).1.trans hw, fun ⟨a, e⟩ => hd a e⟩
  · refine .inl ?_
    simp only [Classical.not_forall, Classical.not_not] at hd
    obtain ⟨a, rfl⟩ := hd
    unfold cStep at h
    split at h
    · cases h
    simp only [discStep, hw] at h
    split at h <;> cases h <;> rfl

theorem wait_ends (hf : FairCtl e) (hg : GoodFile ns) (hr : CReach db f ns (e.st 0)) (hn : ∀ n, (e.st n).crashed = none)
    (n : Nat) (h1 : (e.st n).disc = .wait) : ∃ m, n ≤ m ∧ DiscAt.before (e.st m).disc = false := by
  refine leads e hf.disc (Q := fun s => s.disc = .wait) (R := fun s => DiscAt.before s.disc = false) (n0 := n) (fun m hm hq l hs => wait_moves hq hs) ?_ (Nat.le_refl _) h1
  intro m hm hq
  have hq := hq m (Nat.le_refl _)
  obtain ⟨s', hs⟩ := disc_enabled (db := db) (cinv hg (cexec_reach hr m)) (hn m) (by rw [hq]; simp) (by rw [hq]; simp) .nothing
  exact ⟨m, Nat.le_refl _, _, _, ⟨_, rfl⟩, hs⟩

/-- What is in the list stays. -/
theorem list_step {s s' : CSt} {l : CLabel} (hc : CInv s) (h : cStep db s l = some s') {id : Int} {r : Nat}
    (hg : s.list.get id = some r) : s'.list.get id = some r := by
  by_cases hs : l = .startDisc
  · subst hs
    unfold cStep at h
    split at h
    · cases h
    simp only at h
    split at h <;> cases h
    exact hg
  by_cases hd : ∀ a, l ≠ .disc a
  · rw [(other_step h hd hs).2.1]; exact hg
  · simp only [Classical.not_forall, Classical.not_not] at hd
    obtain ⟨a, rfl⟩ := hd
    have ha := hc.adding
    unfold cStep at h
    split at h
    · cases h
    simp only [discStep] at h
    repeat' split at h
    all_goals try (rw [Option.map_eq_some_iff] at h; obtain ⟨n', hn', h⟩ := h)
    all_goals try (cases h; done)
    all_goals cases h
    all_goals try simp only [put_list, CSt.push]
    all_goals try exact hg
    next ref todo hx =>
    have := ha ref (by rw [hx]; rfl)
    simp only [listPut]
    rw [get_set]
    split
    · next heq => rw [heq] at hg; rw [hg] at this; cases this
    · exact hg

/-! ### Nodes -/

/-- What a step of the controller does to a node. -/
theorem heap_step {s s' : CSt} {l : CLabel} {ref : Nat} (j : Nat) (hlt : ref < s.nHeap) (h : cStep db s l = some s') :
    ref < s'.nHeap ∧ (s'.heap ref = s.heap ref ∧ l ≠ .node ref (.proc j) ∨
      ∃ l', nodeStep db (s.heap ref) l' = some (s'.heap ref) ∧ (l' = .proc j ↔ l = .node ref (.proc j))) := by
  ctl_step h
  all_goals first
    | exact ⟨hlt, .inl ⟨rfl, by simp⟩⟩
    | (refine ⟨by simp [CSt.push]; omega, .inl ⟨?_, by simp⟩⟩
       simp only [CSt.push, updN]
       rw [if_neg (by omega)]
       done)
    | (refine ⟨by simpa using hlt, ?_⟩
       simp only [put_heap, updN]
       split
       · next he =>
         subst he
         exact .inr ⟨_, by assumption, by simp⟩
       · next he => exact .inl ⟨rfl, by simp; try omega⟩)
    | skip

theorem nlock_moves {s s' : NSt} {l : NLabel} {j : Nat} (hi : WakeInv s) (hl : s.lock = some j)
    (h : nodeStep db s l = some s') : s'.crashed ≠ none ∨
      (if l = .proc j then s'.lock = none ∨ s'.lock = some j ∧ s.proc j = .wakeClose ∧ s'.proc j = .wakeNil
       else s'.lock = some j ∧ s'.proc j = s.proc j) := by
  obtain ⟨k1, k2, k3, k4, k5, k5', k5'', k6, k7, k8⟩ := hi
  node_step h
  all_goals try (refine .inl ?_; simp; done)
  all_goals refine .inr ?_
  all_goals grind [updN]

/-- How long the lock of a node will still be held. -/
def nlRank (s : NSt) (j : Nat) : Nat := match s.proc j with
  | .wakeClose => 2
  | _ => 1

theorem node_lock_free (ref : Nat) (hf : ∀ j, Fairly e fun l => l = .node ref (.proc j)) (hg : GoodFile ns)
    (hr : CReach db f ns (e.st 0)) (hn : ∀ n, (e.st n).crashed = none) (n : Nat) (hlt : ref < (e.st n).nHeap) : ∃ m, n ≤ m ∧ ((e.st m).heap ref).lock = none := by
  cases hl : ((e.st n).heap ref).lock with
  | none => exact ⟨n, Nat.le_refl _, hl⟩
  | some j =>
    refine leads_rank e (hf j) (Q := fun s => ref < s.nHeap ∧ (s.heap ref).lock = some j)
      (R := fun s => (s.heap ref).lock = none) (fun s => nlRank (s.heap ref) j) (n0 := n) ?_ ?_ (Nat.le_refl _) ⟨hlt, hl⟩
    · intro m hm ⟨q1, q2⟩ l hs
      obtain ⟨g1, g2⟩ := heap_step j q1 hs
      have hc := cinv hg (cexec_reach hr m)
      have hc' := cinv hg (cexec_reach hr (m + 1))
      rcases g2 with ⟨g2, g3⟩ | ⟨l', g2, g3⟩
      · exact .inr ⟨⟨g1, by rw [g2]; exact q2⟩, by rw [g2]; exact Nat.le_refl _, fun h => absurd h g3⟩
      · rcases nlock_moves (hc.safe ref q1).wake q2 g2 with h1 | h1
        · exact absurd (hc'.safe ref g1).ok h1
        · split at h1
          · rcases h1 with h1 | ⟨h1, h2, h3⟩
            · exact .inl h1
            · exact .inr ⟨⟨g1, h1⟩, by simp [nlRank, h2, h3], fun _ => by simp [nlRank, h2, h3]⟩
          · next hne => exact .inr ⟨⟨g1, h1.1⟩, by simp [nlRank, h1.2], fun h => absurd (g3.2 h) hne⟩
    · intro m hm hq
      obtain ⟨q1, q2⟩ := hq m (Nat.le_refl _)
      have hs := (cinv hg (cexec_reach hr m)).safe ref q1
      refine ⟨m, Nat.le_refl _, .node ref (.proc j), ?_⟩
      have : ∃ x, nodeStep db ((e.st m).heap ref) (.proc j) = some x := by
        simp only [nodeStep, hs.ok, Option.isSome_none, Bool.false_eq_true, if_false, procStep]
        rcases hs.wake.held j q2 with h | h <;> rw [h] <;> dsimp only
        · split
          · exact ⟨_, rfl⟩
          · split <;> exact ⟨_, rfl⟩
        · exact ⟨_, rfl⟩
      obtain ⟨x, hx⟩ := this
      unfold cStep
      simp only [hn m, Option.isSome_none, Bool.false_eq_true, if_false, if_pos q1, hx, Option.map_some, true_and]
      exact ⟨_, rfl⟩

/-! ### Deliveries -/

theorem hist_put (s : CSt) (ref : Nat) (n : NSt) : ∀ x, x ∈ s.hist → x ∈ (s.put ref n).hist := by
  intro x hx
  unfold CSt.put CSt.push
  dsimp only
  split
  · exact List.mem_cons_of_mem _ hx
  · exact hx

theorem hist_step {s s' : CSt} {l : CLabel} (h : cStep db s l = some s') : ∀ x, x ∈ s.hist → x ∈ s'.hist := by
  intro x hx
  ctl_step h
  all_goals first
    | exact hx
    | exact List.mem_cons_of_mem _ hx
    | exact hist_put _ _ _ x hx
    | exact hist_put _ _ _ x (List.mem_cons_of_mem _ hx)

theorem deliv_other {s s' : CSt} {l : CLabel} {k : Nat} (hlt : k < s.nDeliv) (h : cStep db s l = some s') :
    k < s'.nDeliv ∧ (l ≠ .deliver k → s'.deliv k = s.deliv k) := by
  ctl_step h
  all_goals first
    | exact ⟨hlt, fun _ => rfl⟩
    | (refine ⟨by simpa [CSt.push] using hlt, fun _ => ?_⟩; simp [CSt.push]; done)
    | (refine ⟨Nat.lt_succ_of_lt hlt, fun _ => ?_⟩
       simp only [updN]
       rw [if_neg (by omega)])
    | (refine ⟨by simpa using hlt, fun hne => ?_⟩
       simp only [updN, put_deliv]
       rw [if_neg (by intro hh; subst hh; exact hne rfl)])

theorem deliv_own {s s' : CSt} {k : Nat} (h : cStep db s (.deliver k) = some s') : s'.crashed ≠ none ∨
    match s.deliv k with
    | .call id r => s'.deliv k = .stuck ∧ s.disc.locks = true ∨ s'.deliv k = .look id r
    | .look id r => s.list.get (id.toNat : Int) = none ∧ s'.deliv k = .done ∨
        ∃ ref, s.list.get (id.toNat : Int) = some ref ∧ s'.deliv k = .process ref r
    | .process ref r => s'.deliv k = .done ∧ .applied k ref r ∈ s'.hist
    | _ => False := by
  unfold cStep at h
  split at h
  · cases h
  simp only [deliverStep] at h
  cases hx : s.deliv k with
  | absent => simp [hx] at h
  | done => simp [hx] at h
  | stuck => simp [hx] at h
  | call id r =>
    simp only [hx, Option.some.injEq] at h
    subst h
    refine .inr ?_
    by_cases hl : s.disc.locks = true <;> simp [updN, hl]
  | look id r =>
    simp only [hx] at h
    split at h
    · cases h; exact .inl (by simp)
    split at h
    · next hg => cases h; exact .inr (.inl ⟨hg, by simp [updN]⟩)
    · next ref hg => cases h; exact .inr (.inr ⟨ref, hg, by simp [updN]⟩)
  | process ref r =>
    simp only [hx] at h
    rw [Option.map_eq_some_iff] at h
    obtain ⟨n', hn', h⟩ := h
    subst h
    exact .inr ⟨by simp [updN], hist_put _ _ _ _ (by simp)⟩

theorem deliv_can {s : CSt} {k : Nat} (hc : CInv s) (hn : s.crashed = none)
    (h : (∃ id r, s.deliv k = .call id r) ∨ (∃ id r, s.deliv k = .look id r) ∨
      ∃ ref r, s.deliv k = .process ref r ∧ (s.heap ref).lock = none) :
    Enabled (cStep db) (fun l => l = .deliver k) s := by
  refine ⟨.deliver k, ?_⟩
  unfold cStep
  simp only [hn, Option.isSome_none, Bool.false_eq_true, if_false, deliverStep, true_and]
  rcases h with ⟨id, r, h⟩ | ⟨id, r, h⟩ | ⟨ref, r, h, hl⟩ <;> simp only [h]
  · exact ⟨_, rfl⟩
  · split
    · exact ⟨_, rfl⟩
    split <;> exact ⟨_, rfl⟩
  · have hlt := hc.dref k ref (by rw [h]; rfl)
    simp only [nodeStep, (hc.safe ref hlt).ok, Option.isSome_none, Bool.false_eq_true, if_false, if_pos hl, Option.map_some]
    exact ⟨_, rfl⟩

/-- A report that waits for its node is applied. -/
theorem process_ends (hf : FairCtl e) (hg : GoodFile ns) (hr : CReach db f ns (e.st 0)) (hn : ∀ n, (e.st n).crashed = none)
    (k ref : Nat) (r : Report) (n : Nat) (hk : k < (e.st n).nDeliv) (hd : (e.st n).deliv k = .process ref r) :
    ∃ m, n ≤ m ∧ .applied k ref r ∈ (e.st m).hist := by
  refine leads e (hf.deliver k) (Q := fun s => k < s.nDeliv ∧ s.deliv k = .process ref r)
    (R := fun s => .applied k ref r ∈ s.hist) (n0 := n) ?_ ?_ (Nat.le_refl _) ⟨hk, hd⟩
  · intro m hm ⟨q1, q2⟩ l hs
    by_cases hl : l = .deliver k
    · subst hl
      rcases deliv_own hs with h1 | h1
      · exact absurd (hn _) h1
      · rw [q2] at h1; exact .inl h1.2
    · obtain ⟨g1, g2⟩ := deliv_other q1 hs
      exact .inr ⟨⟨g1, (g2 hl).trans q2⟩, hl⟩
  · intro m hm hq
    have hlt := (cinv hg (cexec_reach hr m)).dref k ref (by rw [(hq m (Nat.le_refl _)).2]; rfl)
    obtain ⟨m', g1, g2⟩ := node_lock_free ref (hf.proc ref) hg hr hn m hlt
    exact ⟨m', g1, deliv_can (cinv hg (cexec_reach hr m')) (hn m') (.inr (.inr ⟨ref, r, (hq m' g1).2, g2⟩))⟩

theorem look_ends (hf : FairCtl e) (hg : GoodFile ns) (hr : CReach db f ns (e.st 0)) (hn : ∀ n, (e.st n).crashed = none)
    (k : Nat) (id : UInt8) (r : Report) (ref n : Nat) (hk : k < (e.st n).nDeliv) (hd : (e.st n).deliv k = .look id r)
    (hid : (e.st n).list.get (id.toNat : Int) = some ref) :
    ∃ m, n ≤ m ∧ k < (e.st m).nDeliv ∧ (e.st m).deliv k = .process ref r := by
  refine leads e (hf.deliver k) (Q := fun s => k < s.nDeliv ∧ s.deliv k = .look id r ∧ s.list.get (id.toNat : Int) = some ref)
    (R := fun s => k < s.nDeliv ∧ s.deliv k = .process ref r) (n0 := n) ?_ ?_ (Nat.le_refl _) ⟨hk, hd, hid⟩
  · intro m hm ⟨q1, q2, q3⟩ l hs
    obtain ⟨g1, g2⟩ := deliv_other q1 hs
    by_cases hl : l = .deliver k
    · subst hl
      rcases deliv_own hs with h1 | h1
      · exact absurd (hn _) h1
      · rw [q2] at h1
        rcases h1 with ⟨h1, -⟩ | ⟨ref', h1, h2⟩
        · rw [q3] at h1; cases h1
        · rw [q3] at h1; cases h1; exact .inl ⟨g1, h2⟩
    · exact .inr ⟨⟨g1, (g2 hl).trans q2, list_step (cinv hg (cexec_reach hr m)) hs q3⟩, hl⟩
  · intro m hm hq
    exact ⟨m, Nat.le_refl _, deliv_can (cinv hg (cexec_reach hr m)) (hn m) (.inr (.inl ⟨id, r, (hq m (Nat.le_refl _)).2.1⟩))⟩

theorem call_ends (hf : FairCtl e) (hg : GoodFile ns) (hr : CReach db f ns (e.st 0)) (hn : ∀ n, (e.st n).crashed = none)
    (k : Nat) (id : UInt8) (r : Report) (ref n : Nat) (hk : k < (e.st n).nDeliv) (hd : (e.st n).deliv k = .call id r)
    (hid : (e.st n).list.get (id.toNat : Int) = some ref) :
    ∃ m, n ≤ m ∧ ((∃ m', n ≤ m' ∧ m = m' + 1 ∧ (e.st m').disc.locks = true ∧ (e.st m).deliv k = .stuck) ∨
      k < (e.st m).nDeliv ∧ (e.st m).deliv k = .look id r ∧ (e.st m).list.get (id.toNat : Int) = some ref) := by
  apply Classical.byContradiction
  intro hno
  obtain ⟨m, hm, h⟩ := leads e (hf.deliver k) (Q := fun s => k < s.nDeliv ∧ s.deliv k = .call id r ∧ s.list.get (id.toNat : Int) = some ref)
    (R := fun s => False) (n0 := n) (fun m hm ⟨q1, q2, q3⟩ l hs => by
      obtain ⟨g1, g2⟩ := deliv_other q1 hs
      have g3 := list_step (cinv hg (cexec_reach hr m)) hs q3
      by_cases hl : l = .deliver k
      · subst hl
        rcases deliv_own hs with h1 | h1
        · exact absurd (hn _) h1
        · rw [q2] at h1
          rcases h1 with ⟨h1, h2⟩ | h1
          · exact absurd ⟨m + 1, by omega, .inl ⟨m, hm, rfl, h2, h1⟩⟩ hno
          · exact absurd ⟨m + 1, by omega, .inr ⟨g1, h1, g3⟩⟩ hno
      · exact .inr ⟨⟨g1, (g2 hl).trans q2, g3⟩, hl⟩)
    (fun m hm hq => ⟨m, Nat.le_refl _, deliv_can (cinv hg (cexec_reach hr m)) (hn m) (.inl ⟨id, r, (hq m (Nat.le_refl _)).2.1⟩)⟩)
    (Nat.le_refl _) ⟨hk, hd, hid⟩
  exact h

/-! ### The saver -/

theorem saver_other {s s' : CSt} {l : CLabel} (ha : s.saver ≠ .absent) (hl : isSaver l = false) (h : cStep db s l = some s') :
    s'.saver = s.saver := by
  ctl_step h
  all_goals first
    | rfl
    | (simp [CSt.push]; done)
    | (cases hl; done)
    | (exact absurd (by assumption) ha)

theorem saved_ends (hf : FairCtl e) (hr : CReach db true ns (e.st 0)) (hn : ∀ n, (e.st n).crashed = none)
    (n : Nat) (hd : (e.st n).disc = .done) (ha : (e.st n).saver ≠ .absent) (hs : (e.st n).saver ≠ .stuck)
    (hu : ∀ m, n ≤ m → updates (e.st m).hist = updates (e.st n).hist) :
    ∃ m, n ≤ m ∧ unsaved (e.st m).hist = false ∧ saving (e.st m).hist = false := by
  by_cases h0 : unsaved (e.st n).hist = false ∧ saving (e.st n).hist = false
  · exact ⟨n, Nat.le_refl _, h0⟩
  refine leads_rank e hf.saver (Q := fun s => (s.disc = .done ∧ s.saver ≠ .absent ∧ s.saver ≠ .stuck) ∧
      ¬ (unsaved s.hist = false ∧ saving s.hist = false))
    (R := fun s => unsaved s.hist = false ∧ saving s.hist = false) saverLeft (n0 := n) ?_ ?_ (Nat.le_refl _) ⟨⟨hd, ha, hs⟩, h0⟩
  · intro m hm ⟨⟨q1, q2, q3⟩, q4⟩ l hst
    obtain ⟨g1, g2, g3, g4, g5, g6⟩ := left_step q1 q2 hst
    have g7 := g6 ((hu (m + 1) (by omega)).trans (hu m hm).symm)
    by_cases h1 : unsaved (e.st (m + 1)).hist = false ∧ saving (e.st (m + 1)).hist = false
    · exact .inl h1
    · refine .inr ⟨⟨⟨g2, g3, g5 q3⟩, h1⟩, by omega, ?_⟩
      rintro ⟨op, rfl⟩
      simp only [isSaver, if_true] at g7
      omega
  · intro m hm hq
    apply Classical.byContradiction
    intro hno
    have hstay : ∀ k, m ≤ k → (e.st k).saver = (e.st m).saver := by
      intro k hk
      induction hk with
      | refl => rfl
      | step hk ih =>
        next k =>
        have hnx := e.next k
        split at hnx
        · next l hl =>
          rw [← ih]
          refine saver_other (hq k hk).1.2.1 ?_ hnx
          cases l <;> try rfl
          next op => exact absurd ⟨k, hk, _, _, ⟨op, rfl⟩, hnx⟩ hno
        · rw [hnx]; exact ih
    have hen : ∀ k, m ≤ k → ∀ op, cStep db (e.st k) (.saver op) = none := by
      intro k hk op
      cases hx : cStep db (e.st k) (.saver op) with
      | none => rfl
      | some s' => exact absurd ⟨k, hk, _, _, ⟨op, rfl⟩, hx⟩ hno
    obtain ⟨⟨q1, q2, q3⟩, q4⟩ := hq m (Nat.le_refl _)
    have hi := saveInv (cexec_reach hr m)
    have e1 := hen m (Nat.le_refl _) .trigger
    have e2 := hen m (Nat.le_refl _) .go
    unfold cStep at e1 e2
    simp only [hn m, Option.isSome_none, Bool.false_eq_true, if_false, saverStep] at e1 e2
    cases hv : (e.st m).saver with
    | absent => exact q2 hv
    | stuck => exact q3 hv
    | idle =>
      simp only [hv] at e1
      have hz : (e.st m).nTrig = 0 := by
        split at e1
        · cases e1
        · omega
      refine q4 ⟨?_, by rw [hi.busy, hv]; rfl⟩
      cases hun : unsaved (e.st m).hist with
      | false => rfl
      | true =>
        rcases hi.pending rfl hun with h | h
        · omega
        · rw [hv] at h; cases h
    | window t0 =>
      obtain ⟨k, hk, ht⟩ := hf.time (t0 + 10000) m
      replace ht := ht.resolve_right (fun h => h (hn k))
      have e3 := hen k hk .timer
      have hv' := (hstay k hk).trans hv
      unfold cStep at e3
      simp only [hn k, Option.isSome_none, Bool.false_eq_true, if_false, saverStep, hv', Model.quiet, if_pos ht] at e3
      split at e3 <;> cases e3
    | cmp => simp only [hv] at e2; split at e2 <;> cases e2
    | cmpNodes todo => cases todo <;> simp [hv] at e2
    | copy => simp [hv] at e2
    | iter => simp only [hv] at e2; split at e2 <;> cases e2
    | enc todo => cases todo <;> simp [hv] at e2
    | write => simp [hv] at e2

/-! ### Finite runs, after which only time goes on -/

/-- A finite run after which only time goes on. -/
def cexecOf (db : DB) (s0 : CSt) (ls : List CLabel) (s : CSt) (h : cRun db s0 ls = some s) (hc : s.crashed = none) : Exec (cStep db) where
  st n := if n ≤ ls.length then (cRun db s0 (ls.take n)).getD s else { s with now := s.now + (n - ls.length) }
  lab n := some (ls[n]?.getD (.tick 1))
  next n := by
    have key : ∀ k, ∃ t, cRun db s0 (ls.take k) = some t ∧ cRun db t (ls.drop k) = some s := by
      intro k
      have h' := h
      rw [← List.take_append_drop k ls] at h'
      cases hk : cRun db s0 (ls.take k) with
      | none => rw [cRun_append, hk] at h'; cases h'
      | some t => rw [cRun_append, hk] at h'; exact ⟨t, rfl, h'⟩
    obtain ⟨t, ht, ht'⟩ := key n
    cases hl : ls[n]? with
    | none =>
      have hle : ls.length ≤ n := by simpa using hl
      have hst : (if n ≤ ls.length then (cRun db s0 (ls.take n)).getD s else { s with now := s.now + (n - ls.length) }) =
          { s with now := s.now + (n - ls.length) } := by
        split
        · have : n = ls.length := by omega
          subst this
          simp [h]
        · rfl
      simp only [hst, Option.getD_none]
      rw [if_neg (by omega)]
      unfold cStep
      simp only [hc, Option.isSome_none, Bool.false_eq_true, if_false, Option.some.injEq]
      congr 1
      omega
    | some l =>
      obtain ⟨hlt, hget⟩ := List.getElem?_eq_some_iff.1 hl
      have hd : ls.drop n = l :: ls.drop (n + 1) := by rw [← hget]; exact List.drop_eq_getElem_cons hlt
      rw [hd, cRun] at ht'
      cases hs : cStep db t l with
      | none => rw [hs] at ht'; cases ht'
      | some t' =>
        have : cRun db s0 (ls.take (n + 1)) = some t' := by
          rw [List.take_add_one, hl, cRun_append, ht]
          simp [cRun, hs]
        simp only [ht, this, Option.getD_some]
        rw [if_pos (by omega), if_pos (by omega)]
        exact hs

theorem cexecOf_start {s0 : CSt} {ls : List CLabel} {s : CSt} (h : cRun db s0 ls = some s) (hc : s.crashed = none) :
    (cexecOf db s0 ls s h hc).st 0 = s0 := by
  simp [cexecOf, cRun]

theorem cexecOf_mid {s0 : CSt} {ls : List CLabel} {s : CSt} (h : cRun db s0 ls = some s) (hc : s.crashed = none) (n : Nat)
    (hn : n ≤ ls.length) {t : CSt} (ht : cRun db s0 (ls.take n) = some t) : (cexecOf db s0 ls s h hc).st n = t := by
  simp [cexecOf, ht, hn]

theorem cexecOf_end {s0 : CSt} {ls : List CLabel} {s : CSt} (h : cRun db s0 ls = some s) (hc : s.crashed = none) (n : Nat)
    (hn : ls.length ≤ n) : (cexecOf db s0 ls s h hc).st n = { s with now := s.now + (n - ls.length) } := by
  simp only [cexecOf]
  split
  · have : n = ls.length := by omega
    subst this
    simp [h]
  · rfl

/-- Nobody has anything to do, however late it gets. -/
structure CQuiet (s : CSt) : Prop where
  disc : s.disc = .absent ∨ s.disc = .done
  deliver : ∀ k, s.deliv k = .absent ∨ s.deliv k = .done ∨ s.deliv k = .stuck
  proc : ∀ ref j, ref < s.nHeap → (s.heap ref).proc j = .absent ∨ (s.heap ref).proc j = .done
  saver : s.saver = .absent ∨ s.saver = .stuck ∨ s.saver = .idle ∧ s.nTrig = 0

theorem cquiet_fair {s0 : CSt} {ls : List CLabel} {s : CSt} (h : cRun db s0 ls = some s) (hc : s.crashed = none)
    (hq : CQuiet s) : FairCtl (cexecOf db s0 ls s h hc) := by
  have key : ∀ A : CLabel → Prop, (∀ l t, A l → cStep db { s with now := t } l = none) → Fairly (cexecOf db s0 ls s h hc) A := by
    intro A hA hen
    obtain ⟨m, hm, l, s', h1, h2⟩ := hen ls.length
    rw [cexecOf_end h hc m hm, hA l _ h1] at h2
    cases h2
  obtain ⟨q1, q2, q3, q4⟩ := hq
  constructor
  · refine key _ (fun l t => ?_)
    rintro ⟨a, rfl⟩
    unfold cStep
    rcases q1 with q | q <;> simp [hc, discStep, q]
  · intro k
    refine key _ (fun l t => ?_)
    rintro rfl
    unfold cStep
    rcases q2 k with q | q | q <;> simp [hc, deliverStep, q]
  · intro ref j
    refine key _ (fun l t => ?_)
    rintro rfl
    unfold cStep
    simp only [hc, Option.isSome_none, Bool.false_eq_true, if_false]
    split
    · next hlt =>
      simp only [nodeStep]
      split
      · rfl
      rcases q3 ref j hlt with q | q <;> simp [procStep, q]
    · rfl
  · refine key _ (fun l t => ?_)
    rintro ⟨op, rfl⟩
    unfold cStep
    rcases q4 with q | q | ⟨q, q'⟩ <;> cases op <;> simp [hc, saverStep, q, *]
  · intro t n
    refine ⟨ls.length + n + t, by omega, ?_⟩
    rw [cexecOf_end h hc _ (by omega)]
    exact .inl (by simp only; omega)

/-- Nobody has anything to do, computed. -/
def cRestB (s : CSt) : Bool :=
  decide (s.disc = .absent ∨ s.disc = .done) &&
  (List.range s.nDeliv).all (fun k => decide (s.deliv k = .absent ∨ s.deliv k = .done ∨ s.deliv k = .stuck)) &&
  (List.range s.nHeap).all (fun ref => (List.range (s.heap ref).nProc).all fun j =>
    decide ((s.heap ref).proc j = .absent ∨ (s.heap ref).proc j = .done)) &&
  decide (s.saver = .absent ∨ s.saver = .stuck ∨ s.saver = .idle ∧ s.nTrig = 0)

theorem cquiet_of_rest {s : CSt} (hc : CInv s) (h : cRestB s = true) : CQuiet s := by
  simp only [cRestB, Bool.and_eq_true, List.all_eq_true, List.mem_range, decide_eq_true_eq] at h
  obtain ⟨⟨⟨h1, h2⟩, h3⟩, h4⟩ := h
  refine ⟨h1, fun k => ?_, fun ref j hlt => ?_, h4⟩
  · by_cases hk : k < s.nDeliv
    · exact h2 k hk
    · exact .inl (hc.fresh k (by omega))
  · by_cases hj : j < (s.heap ref).nProc
    · exact h3 ref hlt j hj
    · exact .inl ((hc.safe ref hlt).wake.freshP j (by omega))

end Verif.Lemmas.Ctl
