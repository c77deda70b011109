import Verif.Lemmas.CtlHist

/-
The nodes of a controller run as the node machine says; discovery; deliveries.
-/

set_option linter.unusedSimpArgs false
set_option linter.unusedVariables false
set_option maxHeartbeats 4000000

namespace Verif.Lemmas.Ctl

open Verif.Go Verif.Model Verif.Lemmas.NodeM Verif.Spec

/-! ### Every node is a run of the node machine -/

/-- How node `r` came into being: out of the file, or by `New` in a discovery. -/
def Born (ns : List Node) (r : Nat) (n : Node) : Prop :=
  (ns.length ≤ r ∧ ∃ id, n = newNode id) ∨ ∃ m, ns[r]? = some m ∧ n = { m.link with hasConn := true }

@[simp] theorem applied_push (s : CSt) (e : Event) (r : Nat) : appliedTo r (s.push e).hist = appliedTo r s.hist := rfl

@[simp] theorem applied_put (s : CSt) (ref : Nat) (n : NSt) (r : Nat) :
    appliedTo r (s.put ref n).hist = appliedTo r s.hist := by
  unfold CSt.put; simp only; split <;> rfl

/-- Node `r` is in the state the node machine is in after a run that began with `n` and applied the
reports the history says. -/
def RunOf (db : DB) (n : Node) (rs : List Report) (x : NSt) : Prop :=
  ∃ ls, nodeRun db (NSt.start n) ls = some x ∧ ls.filterMap reportOf = rs

theorem runOf_step {db : DB} {n : Node} {rs : List Report} {x y : NSt} {l : NLabel} (h : RunOf db n rs x)
    (hs : nodeStep db x l = some y) : RunOf db n (rs ++ (reportOf l).toList) y := by
  obtain ⟨ls, h1, h2⟩ := h
  refine ⟨ls ++ [l], by rw [nodeRun_append, h1]; simp [nodeRun, hs], ?_⟩
  rw [List.filterMap_append, h2]
  cases hl : reportOf l <;> simp [hl]

structure BornInv (db : DB) (ns : List Node) (s : CSt) : Prop where
  born : ∀ r, r < s.nHeap → ∃ n, Born ns r n ∧ RunOf db n (appliedTo r s.hist) (s.heap r)
  fresh : ∀ r, s.nHeap ≤ r → appliedTo r s.hist = []

theorem born_congr {db : DB} {ns : List Node} {s s' : CSt} (h : BornInv db ns s) (h1 : s'.heap = s.heap)
    (h2 : s'.nHeap = s.nHeap) (h3 : ∀ r, appliedTo r s'.hist = appliedTo r s.hist) : BornInv db ns s' := by
  obtain ⟨a, b⟩ := h
  exact ⟨by intro r; rw [h1, h2, h3]; exact a r, by intro r; rw [h2, h3]; exact b r⟩

theorem born_put {db : DB} {ns : List Node} {s s' : CSt} {ref : Nat} {x : NSt} {l : NLabel}
    (h : BornInv db ns s) (hr : ref < s.nHeap) (hs : nodeStep db (s.heap ref) l = some x)
    (h1 : s'.heap = updN s.heap ref x) (h2 : s'.nHeap = s.nHeap)
    (h3 : ∀ r, appliedTo r s'.hist = appliedTo r s.hist ++ (if r = ref then (reportOf l).toList else [])) :
    BornInv db ns s' := by
  obtain ⟨a, b⟩ := h
  refine ⟨fun r hlt => ?_, fun r hge => ?_⟩
  · rw [h2] at hlt
    obtain ⟨n, hn, hrun⟩ := a r hlt
    refine ⟨n, hn, ?_⟩
    rw [h1, h3]
    by_cases e : r = ref
    · subst e
      simp only [updN, if_true]
      exact runOf_step hrun hs
    · simp only [updN, if_neg e, List.append_nil]
      exact hrun
  · rw [h2] at hge
    rw [h3, b r hge, if_neg (by omega)]
    rfl

theorem born_new {db : DB} {ns : List Node} {s s' : CSt} {n : Node} (h : BornInv db ns s) (hn : Born ns s.nHeap n)
    (h1 : s'.heap = updN s.heap s.nHeap (NSt.start n)) (h2 : s'.nHeap = s.nHeap + 1)
    (h3 : ∀ r, appliedTo r s'.hist = appliedTo r s.hist) : BornInv db ns s' := by
  obtain ⟨a, b⟩ := h
  refine ⟨fun r hlt => ?_, fun r hge => ?_⟩
  · rw [h2] at hlt
    by_cases e : r = s.nHeap
    · subst e
      refine ⟨n, hn, [], ?_, ?_⟩
      · rw [h1]; simp [updN, nodeRun]
      · rw [h3, b _ (Nat.le_refl _)]; rfl
    · obtain ⟨m, hm, hrun⟩ := a r (by omega)
      refine ⟨m, hm, ?_⟩
      rw [h1, h3]
      simp only [updN, if_neg e]
      exact hrun
  · rw [h2] at hge
    rw [h3]; exact b r (by omega)

theorem born_step {db : DB} {ns : List Node} {s s' : CSt} {l : CLabel} (hc : CInv s) (hi : BornInv db ns s)
    (hge : ns.length ≤ s.nHeap) (h : cStep db s l = some s') : BornInv db ns s' := by
  have k6 := hc.ref
  have k7 := hc.dref
  ctl_step h
  all_goals first
    | exact hi
    | exact born_congr hi rfl rfl (fun _ => rfl)
    | exact born_new hi (.inl ⟨hge, _, rfl⟩) rfl rfl (fun _ => rfl)
    | (refine born_put hi ‹_› ‹_› (put_heap ..) (put_nHeap ..) ?_
       intro r; simp [reportOf]; done)
    | (have e := congrArg DiscAt.ref ‹CSt.disc s = _›
       refine born_put hi (k6 _ e) ‹_› (put_heap ..) (put_nHeap ..) ?_
       intro r; simp [reportOf]; done)
    | (have e := congrArg DelivAt.ref ‹CSt.deliv s _ = _›
       refine born_put hi (k7 _ _ e) ‹_› (put_heap ..) (put_nHeap ..) ?_
       intro r; simp [reportOf, appliedTo, eq_comm]
       split <;> simp [*])

theorem born_loads {db : DB} {ns : List Node} : ∀ (post pre : List Node) {s : CSt}, ns = pre ++ post →
    s.nHeap = pre.length → BornInv db ns s →
      BornInv db ns (s.loadNodes post) ∧ (s.loadNodes post).nHeap = ns.length := by
  intro post
  induction post with
  | nil => intro pre s e hn h; exact ⟨h, by rw [e, List.append_nil]; exact hn⟩
  | cons n post ih =>
    intro pre s e hn h
    refine ih (pre ++ [n]) (s := s.loadNode n) (by simp [e]) (by simp [CSt.loadNode, hn]) ?_
    refine born_new h (.inr ⟨n, ?_, rfl⟩) rfl rfl (fun _ => rfl)
    rw [e, hn]; simp

theorem nHeap_step {db : DB} {s s' : CSt} {l : CLabel} (h : cStep db s l = some s') : s.nHeap ≤ s'.nHeap := by
  ctl_step h
  all_goals first
    | exact Nat.le_refl _
    | exact Nat.le_succ _
    | (simp; done)

theorem bornInv' {db : DB} {f : Bool} {ns : List Node} {s : CSt} (hg : GoodFile ns) (h : CReach db f ns s) :
    BornInv db ns s ∧ ns.length ≤ s.nHeap := by
  obtain ⟨ls, h⟩ := h
  obtain ⟨b1, b2⟩ := born_loads (db := db) (ns := ns) ns [] (s := newController f) rfl rfl
    ⟨by simp [newController], fun _ _ => rfl⟩
  have := crun_induct (db := db) (P := fun s => CInv s ∧ BornInv db ns s ∧ ns.length ≤ s.nHeap)
    (fun s l s' hp hs => ⟨cinv_step hp.1 hs, born_step hp.1 hp.2.1 hp.2.2 hs, Nat.le_trans hp.2.2 (nHeap_step hs)⟩) ls _ _
    ⟨cinv_start hg, b1, Nat.le_of_eq b2.symm⟩ h
  exact this.2

theorem bornInv {db : DB} {f : Bool} {ns : List Node} {s : CSt} (hg : GoodFile ns) (h : CReach db f ns s) :
    BornInv db ns s := (bornInv' hg h).1

end Verif.Lemmas.Ctl
