import Verif.Lemmas.CtlSave
import Verif.Lemmas.CtlDeliv

/-
Identifications started by discovery; the end of a discovery; deliveries happen once; what never happens
without a discovery or a file.
-/

set_option linter.unusedSimpArgs false
set_option linter.unusedVariables false
set_option maxHeartbeats 4000000

namespace Verif.Lemmas.Ctl

open Verif.Go Verif.Model Verif.Lemmas.NodeM Verif.Spec

/-! ### Identifications -/

/-- Ids whose identification has not been started. -/
def unstarted (s : CSt) : List Int :=
  match DiscAt.ref s.disc with
  | some r => (s.heap r).node.id :: DiscAt.todo s.disc
  | none => DiscAt.todo s.disc

structure IdentInv (ids : List Int) (s : CSt) : Prop where
  before : DiscAt.before s.disc = false
  sub : ∀ id ∈ unstarted s, id ∈ ids
  count : ∀ r, r < s.nHeap → (s.heap r).nIdent =
    if (s.heap r).node.id ∈ ids ∧ (s.heap r).node.id ∉ unstarted s then 1 else 0

/-- Steps other than those of the discovery start no identifications. -/
theorem other_ident {db : DB} {s s' : CSt} {l : CLabel} (h : cStep db s l = some s') (h1 : ∀ a, l ≠ .disc a)
    (h2 : l ≠ .startDisc) (r : Nat) : (s'.heap r).nIdent = (s.heap r).nIdent := by
  ctl_step h
  all_goals try (exact absurd rfl h2)
  all_goals try (exact absurd rfl (h1 _))
  all_goals first
    | rfl
    | (have f := (frame_step (by assumption)).nIdent
       simp only [put_heap, updN]
       split <;> simp_all)

theorem ident_step {db : DB} {ids : List Int} {s s' : CSt} {l : CLabel}
    (hc : CInv s) (hi : IdentInv ids s) (h : cStep db s l = some s') : IdentInv ids s' := by
  by_cases hs : l = .startDisc
  · subst hs
    have := hi.before
    unfold cStep at h
    split at h
    · cases h
    simp only at h
    split at h
    · rename_i e; rw [e] at this; cases this
    · cases h
  by_cases hd : ∀ a, l ≠ .disc a
  · obtain ⟨e1, e2, e3, e4, e5⟩ := other_step h hd hs
    have e6 := other_ident h hd hs
    obtain ⟨k1, k2, k3⟩ := hi
    have u1 : unstarted s' = unstarted s := by unfold unstarted; simp only [e1, e5]
    constructor <;> simp only [u1, e1, e2, e3, e4, e5, e6] <;> assumption
  · simp only [ne_eq, Classical.not_forall, Classical.not_not] at hd
    obtain ⟨a, rfl⟩ := hd
    obtain ⟨k1, k2, k3⟩ := hi
    have c3 := hc.list
    have c4 := hc.known
    have c5 := hc.adding
    have c6 := hc.ref
    have c11 := hc.nodup
    have c12 := hc.refNew
    clear hc
    unfold unstarted at k2 k3
    unfold cStep at h
    split at h
    · cases h
    simp only [discStep] at h
    repeat' split at h
    all_goals try (rw [Option.map_eq_some_iff] at h; obtain ⟨n', hn', h⟩ := h)
    all_goals try injection h with h
    all_goals try subst h
    all_goals try (cases h; done)
    all_goals try have f := frame_step (by assumption)
    all_goals try obtain ⟨f1, f2, f3, f4⟩ := f
    all_goals have q1 := congrArg DiscAt.ref (by assumption : CSt.disc s = _)
    all_goals have q2 := congrArg DiscAt.adding (by assumption : CSt.disc s = _)
    all_goals have q4 := congrArg DiscAt.todo (by assumption : CSt.disc s = _)
    all_goals have q5 := congrArg DiscAt.before (by assumption : CSt.disc s = _)
    all_goals (
      conv at q1 => rhs; whnf
      conv at q2 => rhs; whnf
      conv at q4 => rhs; whnf
      conv at q5 => rhs; whnf)
    all_goals try (rw [q5] at k1; cases k1; done)
    all_goals simp only [q1, q2, q4] at k2 k3 c4 c5 c6 c11 c12
    all_goals constructor
    all_goals try simp only [unstarted, put_heap, put_nHeap, put_list, put_disc, put_nDeliv, put_deliv, put_crashed, push_heap, push_nHeap, push_list, push_disc, push_nDeliv, push_deliv, push_crashed, DiscAt.ref, DiscAt.adding, DiscAt.todo, DiscAt.before]
    all_goals first
      | assumption
      | (grind [updN, get_put, start_new]; done)
      | skip

theorem ident_run {db : DB} {f : Bool} {ns : List Node} {ids : List Int} (hg : GoodFile ns) :
    ∀ (ls : List CLabel) (s s' : CSt), CReach db f ns s → IdentInv ids s →
      cRun db s ls = some s' → IdentInv ids s' := by
  intro ls
  induction ls with
  | nil => intro s s' _ hi h; cases h; exact hi
  | cons l ls ih =>
    intro s s' hr hi h
    simp only [cRun] at h
    cases hl : cStep db s l with
    | none => rw [hl] at h; cases h
    | some s1 =>
      rw [hl] at h
      exact ih s1 s' (creach_step hr hl) (ident_step (cinv hg hr) hi hl) h

theorem ident_reply {db : DB} {s s' : CSt} {bm : List Bool} (hc : CInv s) (hw : s.disc = .wait)
    (h : cStep db s (.disc (.nodes bm)) = some s') : IdentInv (activeIds bm) s' := by
  obtain rfl := (dinv_reply hw h).2
  refine ⟨rfl, fun _ h => h, fun r hr => ?_⟩
  refine (hc.zero r hr (.inl (by rw [hw]; rfl))).trans (Eq.symm (if_neg ?_))
  exact fun h => h.2 h.1

/-! ### A discovery ends -/

/-- How many steps a discovery still has to take after the reply. -/
def discLeft : DiscAt → Nat
  | .absent | .wait | .done => 0
  | .loop t => 8 * t.length + 1
  | .add _ t => 8 * t.length + 8
  | .locked _ t => 8 * t.length + 7
  | .writing _ t => 8 * t.length + 6
  | .unlock _ t => 8 * t.length + 5
  | .announce _ t => 8 * t.length + 4
  | .setup _ t => 8 * t.length + 3
  | .start _ t => 8 * t.length + 2

/-- A step of the discovery. -/
def isDisc : CLabel → Bool
  | .disc _ => true
  | _ => false

theorem disc_left {db : DB} {s s' : CSt} {l : CLabel} (hb : DiscAt.before s.disc = false) (h : cStep db s l = some s') :
    DiscAt.before s'.disc = false ∧ discLeft s'.disc + (if isDisc l then 1 else 0) ≤ discLeft s.disc := by
  by_cases hs : l = .startDisc
  · subst hs
    unfold cStep at h
    split at h
    · cases h
    simp only at h
    split at h
    · rename_i e; rw [e] at hb; cases hb
    · cases h
  by_cases hd : ∀ a, l ≠ .disc a
  · obtain ⟨e1, -⟩ := other_step h hd hs
    rw [e1]
    refine ⟨hb, ?_⟩
    cases l <;> first | exact Nat.le_refl _ | exact absurd rfl (hd _)
  · simp only [ne_eq, Classical.not_forall, Classical.not_not] at hd
    obtain ⟨a, rfl⟩ := hd
    unfold cStep at h
    split at h
    · cases h
    simp only [discStep] at h
    repeat' split at h
    all_goals try (rw [Option.map_eq_some_iff] at h; obtain ⟨n', hn', h⟩ := h)
    all_goals try injection h with h
    all_goals try subst h
    all_goals try (cases h; done)
    all_goals have e := (by assumption : CSt.disc s = _)
    all_goals rw [e] at hb ⊢
    all_goals try (cases hb; done)
    all_goals refine ⟨rfl, ?_⟩
    all_goals simp only [discLeft, isDisc, if_true, List.length_cons, List.length_nil]
    all_goals omega

/-- The number of steps the discovery takes in a run. -/
def discSteps (ls : List CLabel) : Nat := ls.countP isDisc

theorem disc_bound {db : DB} : ∀ (ls : List CLabel) (s s' : CSt), DiscAt.before s.disc = false →
    cRun db s ls = some s' → discLeft s'.disc + discSteps ls ≤ discLeft s.disc := by
  intro ls
  induction ls with
  | nil => intro s s' _ h; cases h; exact Nat.le_refl _
  | cons l ls ih =>
    intro s s' hb h
    simp only [cRun] at h
    cases hl : cStep db s l with
    | none => rw [hl] at h; cases h
    | some s1 =>
      rw [hl] at h
      obtain ⟨a1, a2⟩ := disc_left hb hl
      have := ih s1 s' a1 h
      simp only [discSteps, List.countP_cons] at *
      omega

theorem disc_enabled {db : DB} {s : CSt} (hc : CInv s) (h0 : s.crashed = none) (h1 : s.disc ≠ .absent)
    (h2 : s.disc ≠ .done) (a : DiscAnswer) : ∃ s', cStep db s (.disc a) = some s' := by
  have c6 := hc.ref
  have key : ∀ r l, r < s.nHeap → l = .setup ∨ l = .identify → ∃ n, nodeStep db (s.heap r) l = some n := by
    intro r l hr hl
    have := (hc.safe r hr).ok
    unfold nodeStep
    rw [this]
    rcases hl with rfl | rfl <;> exact ⟨_, rfl⟩
  unfold cStep
  rw [h0]
  simp only [Option.isSome_none, Bool.false_eq_true, if_false, discStep]
  cases hd : s.disc with
  | absent => exact absurd hd h1
  | done => exact absurd hd h2
  | wait => cases a <;> exact ⟨_, rfl⟩
  | loop t =>
    cases t with
    | nil => exact ⟨_, rfl⟩
    | cons id t => simp only; cases s.list.get id <;> exact ⟨_, rfl⟩
  | setup r t =>
    obtain ⟨n, hn⟩ := key r .setup (c6 r (by rw [hd]; rfl)) (.inl rfl)
    simp only [hn]; exact ⟨_, rfl⟩
  | start r t =>
    obtain ⟨n, hn⟩ := key r .identify (c6 r (by rw [hd]; rfl)) (.inr rfl)
    simp only [hn]; exact ⟨_, rfl⟩
  | _ => exact ⟨_, rfl⟩

/-! ### A report is applied once -/

@[simp] theorem times_push (s : CSt) (e : Event) (k : Nat) : timesApplied k (s.push e).hist = timesApplied k s.hist := rfl
@[simp] theorem times_put (s : CSt) (ref : Nat) (n : NSt) (k : Nat) :
    timesApplied k (s.put ref n).hist = timesApplied k s.hist := by
  unfold CSt.put; simp only; split <;> rfl

structure OnceInv (s : CSt) : Prop where
  fresh : ∀ k, s.nDeliv ≤ k → timesApplied k s.hist = 0
  most : ∀ k, timesApplied k s.hist ≤ 1
  zero : ∀ k, s.deliv k ≠ .done → timesApplied k s.hist = 0

theorem once_step {db : DB} {s s' : CSt} {l : CLabel} (hc : CInv s) (hi : OnceInv s)
    (h : cStep db s l = some s') : OnceInv s' := by
  obtain ⟨k1, k2, k3⟩ := hi
  have c13 := hc.fresh
  clear hc
  ctl_step h
  all_goals constructor
  all_goals try simp only [put_nDeliv, put_deliv, push_nDeliv, push_deliv, times_put, times_push, timesApplied]
  all_goals first
    | assumption
    | grind [updN]

theorem onceInv {db : DB} {f : Bool} {ns : List Node} {s : CSt} (hg : GoodFile ns) (h : CReach db f ns s) :
    OnceInv s := by
  obtain ⟨ls, h⟩ := h
  have h0 : ∀ (ns : List Node) (s : CSt), (∀ k, timesApplied k s.hist = 0) → ∀ k, timesApplied k (s.loadNodes ns).hist = 0 := by
    intro ns
    induction ns with
    | nil => intro s h; exact h
    | cons n ns ih => intro s h; exact ih (s.loadNode n) h
  have h1 := h0 ns (newController f) (fun _ => rfl)
  have := crun_induct (db := db) (P := fun s => CInv s ∧ OnceInv s)
    (fun s l s' hp hs => ⟨cinv_step hp.1 hs, once_step hp.1 hp.2 hs⟩) ls _ _
    ⟨cinv_start hg, ⟨fun k _ => h1 k, fun k => by rw [start, h1 k]; omega, fun k _ => h1 k⟩⟩ h
  exact this.2

/-! ### What is stuck stays stuck; what crashes -/

theorem stuck_step {db : DB} {s s' : CSt} {l : CLabel} (h : cStep db s l = some s') :
    (s.saver = .stuck → s'.saver = .stuck) ∧ (∀ k, s.deliv k = .stuck → k < s.nDeliv → s'.deliv k = .stuck) ∧
      s.nDeliv ≤ s'.nDeliv := by
  ctl_step h
  all_goals refine ⟨?_, ?_, ?_⟩
  all_goals try simp only [put_nDeliv, put_deliv, put_saver, push_nDeliv, push_deliv, push_saver]
  all_goals first
    | exact fun h => h
    | exact fun _ h _ => h
    | omega
    | grind [updN]

theorem stuck_run {db : DB} : ∀ (ls : List CLabel) (s s' : CSt), cRun db s ls = some s' →
    (s.saver = .stuck → s'.saver = .stuck) ∧ (∀ k, s.deliv k = .stuck → k < s.nDeliv → s'.deliv k = .stuck) := by
  intro ls
  induction ls with
  | nil => intro s s' h; cases h; exact ⟨id, fun _ h _ => h⟩
  | cons l ls ih =>
    intro s s' h
    simp only [cRun] at h
    cases hl : cStep db s l with
    | none => rw [hl] at h; cases h
    | some s1 =>
      rw [hl] at h
      obtain ⟨a1, a2, a3⟩ := stuck_step hl
      obtain ⟨b1, b2⟩ := ih s1 s' h
      exact ⟨fun h => b1 (a1 h), fun k h1 h2 => b2 k (a2 k h1 h2) (by omega)⟩

/-- A crash happens only while the discovery writes the list or the saver reads a node. -/
theorem crash_cause {db : DB} {s s' : CSt} {l : CLabel} (hc : CInv s) (h0 : s.crashed = none)
    (h : cStep db s l = some s') : s'.crashed = none ∨ s'.crashed = some .mapRace ∧
      (s.disc.writes = true ∨ (s.saver.reads).isSome = true) := by
  have c1 := hc.safe
  have c6 := hc.ref
  have c7 := hc.dref
  have c8 := hc.conn
  have hi' := cinv_step hc h
  by_cases hh : s'.crashed = none
  · exact .inl hh
  right
  refine ⟨hi'.crash.resolve_left hh, ?_⟩
  have safe' := hi'.safe
  clear hi'
  ctl_step h
  all_goals try (exact absurd h0 hh)
  all_goals try (left; rename_i hx; exact hx.1)
  all_goals try (rename_i hx; right; rw [hx.1]; rfl)
  all_goals exfalso
  all_goals try simp only [put_crashed, put_heap, put_nHeap] at hh safe'
  · rename_i ref todo hd n' hn'
    exact hh (by simpa [updN] using (safe' ref (c6 ref (by rw [hd]; rfl))).ok)
  · rename_i ref todo hd n' hn'
    exact hh (by simpa [updN] using (safe' ref (c6 ref (by rw [hd]; rfl))).ok)
  · rename_i k _ ref r hd n' hn'
    exact hh (by simpa [updN] using (safe' ref (c7 k ref (by rw [hd]; rfl))).ok)
  · rename_i ref i a hlt n' hn'
    exact hh (by simpa [updN] using (safe' ref hlt).ok)
  · rename_i ref j hlt n' hn'
    exact hh (by simpa [updN] using (safe' ref hlt).ok)

/-- Without a file the saver never saves. -/
structure NoFile (s : CSt) : Prop where
  file : s.hasFile = false
  idle : SaverAt.busy s.saver = false

theorem noFile_step {db : DB} {s s' : CSt} {l : CLabel} (hi : NoFile s) (h : cStep db s l = some s') : NoFile s' := by
  obtain ⟨k1, k2⟩ := hi
  ctl_step h
  all_goals constructor
  all_goals try simp only [put_hasFile, put_saver, push_hasFile, push_saver]
  all_goals first
    | assumption
    | rfl
    | (simp_all [SaverAt.busy]; done)

theorem noFile {db : DB} {ns : List Node} {s : CSt} (h : CReach db false ns s) : NoFile s := by
  obtain ⟨ls, h⟩ := h
  have h0 : ∀ (ns : List Node) (s : CSt), NoFile s → NoFile (s.loadNodes ns) := by
    intro ns
    induction ns with
    | nil => intro s h; exact h
    | cons n ns ih => intro s h; exact ih (s.loadNode n) ⟨h.file, h.idle⟩
  exact crun_induct (fun _ _ _ => noFile_step) ls _ _ (h0 ns _ ⟨rfl, rfl⟩) h

end Verif.Lemmas.Ctl
