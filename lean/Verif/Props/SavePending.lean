import Verif.Props.SaveEnd

/-
C121, with no assumption about what was saved before: whenever nothing is pending, the file says what is known about the nodes.
-/

set_option linter.unusedSimpArgs false
set_option linter.unusedVariables false
set_option maxHeartbeats 1000000

namespace Verif.Props

open Verif.Go Verif.Model Verif.Spec Verif.Spec.SaveEnd Verif.Lemmas Verif.Lemmas.NodeM Verif.Lemmas.Ctl

variable {db : DB} {ns : List Node}

/-! ### Nodes -/

/-- Some identification of the node goes on. -/
def Busy (x : NSt) : Prop := ∃ i, Underway (x.ident i)

theorem busy_upd {x : NSt} {f : Nat → IdentAt} {i : Nat} {a : IdentAt} (h : x.ident = updN f i a) (ha : Underway a) : Busy x :=
  ⟨i, by rw [h]; simpa [updN] using ha⟩

theorem node_busy {x x' : NSt} {l : NLabel} (h : nodeStep db x l = some x') (hb : Busy x) :
    Busy x' ∨ nodePushes x < nodePushes x' := by
  have hp : ∀ h : List NEv, List.countP (fun e => decide (e = NEv.pushed)) h <
      List.countP (fun e => decide (e = NEv.pushed)) (.pushed :: h) := by intro h; simp
  obtain ⟨j, hj⟩ := hb
  node_step h
  all_goals first
    | exact .inl ⟨j, hj⟩
    | exact .inr (hp _)
    | (refine .inl ⟨j, (?_ : Underway (updN x.ident _ _ j))⟩
       unfold updN
       split
       · subst_vars; simp_all [Underway]; done
       · exact hj)

theorem node_dirty {x x' : NSt} {l : NLabel} (h : nodeStep db x l = some x') :
    nodeJson x'.node = nodeJson x.node ∨ nodePushes x < nodePushes x' ∨ Busy x' := by
  have hp : ∀ h : List NEv, List.countP (fun e => decide (e = NEv.pushed)) h <
      List.countP (fun e => decide (e = NEv.pushed)) (.pushed :: h) := by intro h; simp
  node_step h
  all_goals first
    | exact .inl rfl
    | exact .inr (.inl (hp _))
    | exact .inr (.inr (busy_upd rfl (by simp [Underway])))

/-! ### The controller -/

/-- Some identification goes on. -/
def AnyBusy (s : CSt) : Prop := ∃ ref, ref < s.nHeap ∧ Busy (s.heap ref)

theorem put_unsaved_or {s : CSt} {r : Nat} {n : NSt} (hc : n.node.hasConn = true) (hp : nodePushes (s.heap r) < nodePushes n) :
    unsaved (s.put r n).hist = true := by
  unfold CSt.put
  dsimp only
  rw [if_pos ⟨hp, hc⟩]
  simp [CSt.push, unsaved]

/-- What a step leaves as it was. -/
structure Same (s s' : CSt) : Prop where
  list : s'.list = s.list
  json : ∀ ref, nodeJson (s'.heap ref).node = nodeJson (s.heap ref).node
  saver : s'.saver = s.saver
  unsaved : Verif.Spec.unsaved s'.hist = Verif.Spec.unsaved s.hist
  trig : s'.nTrig = s.nTrig
  upd : updates s'.hist = updates s.hist

theorem put_same {s : CSt} {r : Nat} {n : NSt} (hj : nodeJson n.node = nodeJson (s.heap r).node)
    (hp : ¬ nodePushes (s.heap r) < nodePushes n) : Same s (s.put r n) := by
  unfold CSt.put
  dsimp only
  rw [if_neg (fun h => hp h.1)]
  refine ⟨rfl, fun ref => ?_, rfl, rfl, rfl, rfl⟩
  simp only [updN]
  split
  · subst_vars; exact hj
  · rfl

/-- A node that is identified goes on being identified until it pushes. -/
theorem busy_stays {s s' : CSt} {l : CLabel} (hc : CInv s) (h : cStep db s l = some s') (hd : hasNode s.disc = false)
    (hb : AnyBusy s) : AnyBusy s' ∨ unsaved s'.hist = true := by
  have hraw : DiscAt.raw s.disc = none := by cases hx : s.disc <;> simp_all [DiscAt.raw, hasNode]
  have key : ∀ (r : Nat) (n : NSt) (nl : NLabel) (t : CSt), r < s.nHeap → t.heap = s.heap → t.nHeap = s.nHeap →
      nodeStep db (s.heap r) nl = some n → AnyBusy (t.put r n) ∨ unsaved (t.put r n).hist = true := by
    intro r n nl t hlt ht hh hn
    obtain ⟨ref, h1, h2⟩ := hb
    by_cases he : ref = r
    · subst he
      rcases node_busy hn h2 with h3 | h3
      · exact .inl ⟨ref, by simpa [hh] using hlt, by simpa [updN] using h3⟩
      · refine .inr (put_unsaved_or ?_ (by rw [ht]; exact h3))
        have hx : (s.heap ref).node.hasConn = true := (hc.conn ref hlt).resolve_left (by rw [hraw]; simp)
        rw [(frame_step hn).hasConn, hx]; rfl
    · exact .inl ⟨ref, by simpa [hh] using h1, by simpa [updN, he, ht] using h2⟩
  have keep : ∀ t : CSt, t.heap = s.heap → t.nHeap = s.nHeap → AnyBusy t := by
    intro t h1 h2
    obtain ⟨ref, h3, h4⟩ := hb
    exact ⟨ref, by rw [h2]; exact h3, by rw [h1]; exact h4⟩
  ctl_step h
  all_goals try (simp only [hasNode, ‹s.disc = _›, reduceCtorEq] at hd; done)
  all_goals first
    | exact .inl (keep _ rfl rfl)
    | (refine key _ _ _ _ ?_ rfl rfl (by assumption) <;> first
        | assumption
        | exact hc.dref _ _ (by rename_i hx _ _; rw [hx]; rfl))
    | (obtain ⟨ref, h1, h2⟩ := hb
       refine .inl ⟨ref, Nat.lt_succ_of_lt h1, ?_⟩
       simpa [updN, Nat.ne_of_lt h1] using h2)

theorem identify_busy {x x' : NSt} (h : nodeStep db x .identify = some x') : Busy x' := by
  unfold nodeStep at h
  split at h
  · cases h
  · injection h with h; subst h
    exact busy_upd rfl (by simp [Underway])

/-- The discovery passes a node on to its identification. -/
theorem node_passed {s s' : CSt} {l : CLabel} (hc : CInv s) (h : cStep db s l = some s') (hd : hasNode s.disc = true) :
    hasNode s'.disc = true ∨ AnyBusy s' := by
  have key : ∀ (r : Nat) (n : NSt) (t : CSt), DiscAt.ref s.disc = some r → nodeStep db (s.heap r) .identify = some n →
      t.heap = (s.put r n).heap → t.nHeap = (s.put r n).nHeap → AnyBusy t := by
    intro r n t hr hn h1 h2
    refine ⟨r, by rw [h2, put_nHeap]; exact hc.ref r hr, ?_⟩
    rw [h1, put_heap]
    simpa [updN] using identify_busy hn
  ctl_step h
  all_goals first
    | exact .inl hd
    | exact .inl rfl
    | (simp only [hasNode, ‹s.disc = _›, Bool.false_eq_true, reduceCtorEq] at hd; done)
    | (left; simpa using hd; done)
    | exact .inr (key _ _ _ (by rw [‹s.disc = _›]; rfl) (by assumption) rfl rfl)

/-- If no node is at hand or being identified, then a step that changes what is saved is followed by a save. -/
theorem quiet_same {s s' : CSt} {l : CLabel} (hc : CInv s) (h : cStep db s l = some s') (hd : hasNode s.disc = false)
    (hl : isSaver l = false) (ha : l ≠ .startSaver) :
    hasNode s'.disc = true ∨ AnyBusy s' ∨ unsaved s'.hist = true ∨ Same s s' := by
  have hraw : DiscAt.raw s.disc = none := by cases hx : s.disc <;> simp_all [DiscAt.raw, hasNode]
  have key : ∀ (r : Nat) (n : NSt) (nl : NLabel) (t : CSt), r < s.nHeap → t.heap = s.heap → t.nHeap = s.nHeap →
      nodeStep db (s.heap r) nl = some n → AnyBusy (t.put r n) ∨ unsaved (t.put r n).hist = true ∨ Same t (t.put r n) := by
    intro r n nl t hlt ht hh hn
    by_cases hp : nodePushes (s.heap r) < nodePushes n
    · refine .inr (.inl (put_unsaved_or ?_ (by rw [ht]; exact hp)))
      have hx : (s.heap r).node.hasConn = true := (hc.conn r hlt).resolve_left (by rw [hraw]; simp)
      rw [(frame_step hn).hasConn, hx]; rfl
    · rcases node_dirty hn with h1 | h1 | h1
      · exact .inr (.inr (put_same (by rw [ht]; exact h1) (by rw [ht]; exact hp)))
      · exact absurd h1 hp
      · exact .inl ⟨r, by simpa [hh] using hlt, by simpa [updN] using h1⟩
  ctl_step h
  all_goals try (simp only [hasNode, ‹s.disc = _›, reduceCtorEq] at hd; done)
  all_goals first
    | exact .inr (.inr (.inr ⟨rfl, fun _ => rfl, rfl, rfl, rfl, rfl⟩))
    | exact .inl rfl
    | (cases hl; done)
    | exact absurd rfl ha
    | (refine .inr ((key _ _ _ { s with hist := .applied _ _ _ :: s.hist } (hc.dref _ _ (by rw [‹s.deliv _ = _›]; rfl)) rfl rfl
         (by assumption)).imp id fun h => h.imp id fun h => ⟨h.list, h.json, h.saver, h.unsaved, h.trig, h.upd⟩))
    | exact .inr (key _ _ _ _ (by assumption) rfl rfl (by assumption))

/-- The nodes as they are saved. -/
def json (s : CSt) : List (Int × Json) := s.list.map fun a => (a.1, nodeJson (s.heap a.2).node)

theorem text_json {s t : CSt} (h : json s = json t) : saveText s.nodes = saveText t.nodes := by
  refine saveText_congr ?_
  simpa [CSt.nodes, json, Function.comp_def] using h

/-- No update was pushed yet, and nothing has changed since the start `s0` with the file `x0`. -/
structure Untouched (s0 : CSt) (x0 : FileAt) (s : CSt) (x : FileAt) : Prop where
  saver : s.saver = .absent ∨ s.saver = .idle
  trig : s.nTrig = 0
  none : updates s.hist = 0
  json : Verif.Props.json s = Verif.Props.json s0
  text : x.text = x0.text

/-- The save in progress has taken the nodes as they are, and if none is in progress it is in the file. -/
def Good (s : CSt) (x : FileAt) : Prop :=
  Acc s.list (fun r => nodeJson (s.heap r).node) s.saver x ∧ (x.text = saveText s.nodes ∨ SaverAt.busy s.saver = true)

def K (s0 : CSt) (x0 : FileAt) (s : CSt) (x : FileAt) : Prop :=
  unsaved s.hist = true ∨ hasNode s.disc = true ∨ AnyBusy s ∨ Good s x ∨ Untouched s0 x0 s x

theorem acc_congr {L L' : GoMap Int Nat} {J J' : Nat → Json} {sv : SaverAt} {x : FileAt} (h1 : L' = L) (h2 : ∀ r, J' r = J r)
    (h : Acc L J sv x) : Acc L' J' sv x := by
  have : J' = J := funext h2
  subst h1; subst this; exact h

theorem same_json {s s' : CSt} (h : Same s s') : json s' = json s := by
  unfold json
  rw [h.list]
  exact List.map_congr_left fun a _ => by rw [h.json]

theorem same_good {s s' : CSt} {x : FileAt} (h : Same s s') (hg : Good s x) : Good s' x := by
  refine ⟨?_, ?_⟩
  · rw [h.saver]; exact acc_congr h.list (fun r => h.json r) hg.1
  · rw [h.saver, text_json (same_json h)]; exact hg.2

theorem saver_frame {s s' : CSt} {op : SaverOp} (h : cStep db s (.saver op) = some s') :
    s'.list = s.list ∧ s'.heap = s.heap ∧ s'.nHeap = s.nHeap ∧ s'.disc = s.disc ∧ s.saver ≠ .absent ∧
      updates s'.hist = updates s.hist := by
  ctl_step h
  all_goals simp_all [updates]

theorem next_other {s : CSt} {l : CLabel} {x : FileAt} (hl : isSaver l = false) : x.next s (some l) = x := by
  unfold FileAt.next
  cases l <;> first | rfl | cases hl

theorem untouched_rests {s0 : CSt} {x0 : FileAt} {s s' : CSt} {op : SaverOp} {x : FileAt} (hk : Untouched s0 x0 s x)
    (h : cStep db s (.saver op) = some s') : False := by
  unfold cStep at h
  split at h
  · cases h
  simp only at h
  unfold saverStep at h
  rcases hk.saver with hs | hs <;> rw [hs] at h <;> cases op <;> simp [hk.trig] at h

theorem saver_absent {s s' : CSt} (h : cStep db s .startSaver = some s') : s.saver = .absent := by
  unfold cStep at h
  split at h
  · cases h
  · simp only at h
    split at h
    · assumption
    · cases h

theorem k_step {s0 : CSt} {x0 : FileAt} {s s' : CSt} {l : CLabel} {x : FileAt} (hc : CInv s) (hf : s.hasFile = true)
    (h : cStep db s l = some s') (hk : K s0 x0 s x) : K s0 x0 s' (x.next s (some l)) := by
  by_cases hn : hasNode s.disc = true
  · exact (node_passed hc h hn).elim (fun h => .inr (.inl h)) fun h => .inr (.inr (.inl h))
  have hn' : hasNode s.disc = false := by simpa using hn
  by_cases hb : AnyBusy s
  · exact (busy_stays hc h hn' hb).elim (fun h => .inr (.inr (.inl h))) .inl
  by_cases hl : isSaver l = true
  · cases l <;> first | cases hl | skip
    next op =>
    obtain ⟨f1, f2, f3, f4, f5, f6⟩ := saver_frame h
    have hT : ∀ l' : GoMap Int Node, l'.map (fun e => (e.1, nodeJson e.2)) =
        s.list.map (fun a => (a.1, nodeJson (s.heap a.2).node)) → saveText l' = saveText s.nodes := by
      intro l' h
      exact saveText_congr (by rw [h]; simp [CSt.nodes])
    have hlk : s.disc.locks = false ∧ s.disc.writes = false := by
      cases hx : s.disc <;> simp_all [hasNode, DiscAt.locks, DiscAt.writes]
    have go : Due s.list (fun r => nodeJson (s.heap r).node) (saveText s.nodes) s x → K s0 x0 s' (x.next s (some (.saver op))) := by
      intro hd
      rcases due_step hT rfl (fun _ _ => rfl) hf f5 hlk.1 hlk.2 h f6 hd with h1 | h1
      · exact .inl h1
      · refine .inr (.inr (.inr (.inl ⟨acc_congr f1 (fun r => by rw [f2]) h1.1, ?_⟩)))
        have : s'.nodes = s.nodes := by simp [CSt.nodes, f1, f2]
        rw [this]; exact h1.2
    rcases hk with hk | hk | hk | hk | hk
    · exact go (.inl hk)
    · exact absurd hk hn
    · exact absurd hk hb
    · exact go (.inr hk)
    · exact (untouched_rests hk h).elim
  · have hl' : isSaver l = false := by simpa using hl
    rw [next_other hl']
    by_cases ha : l = .startSaver
    · subst ha
      unfold cStep at h
      split at h
      · cases h
      simp only at h
      split at h
      case isFalse => cases h
      rename_i hv
      injection h with h; subst h
      rcases hk with hk | hk | hk | hk | hk
      · exact .inl hk
      · exact .inr (.inl hk)
      · exact .inr (.inr (.inl hk))
      · refine .inr (.inr (.inr (.inl ⟨trivial, ?_⟩)))
        have := hk.2
        rw [hv] at this
        exact .inl (this.resolve_right (by simp [SaverAt.busy]))
      · exact .inr (.inr (.inr (.inr ⟨.inr rfl, hk.trig, hk.none, hk.json, hk.text⟩)))
    · rcases quiet_same hc h hn' hl' ha with h1 | h1 | h1 | h1
      · exact .inr (.inl h1)
      · exact .inr (.inr (.inl h1))
      · exact .inl h1
      · rcases hk with hk | hk | hk | hk | hk
        · exact .inl (by rw [h1.unsaved]; exact hk)
        · exact absurd hk hn
        · exact absurd hk hb
        · exact .inr (.inr (.inr (.inl (same_good h1 hk))))
        · exact .inr (.inr (.inr (.inr ⟨by rw [h1.saver]; exact hk.saver, by rw [h1.trig]; exact hk.trig, by rw [h1.upd]; exact hk.none,
            by rw [same_json h1]; exact hk.json, hk.text⟩)))

theorem start_untouched (x : FileAt) : Untouched (start true ns) x (start true ns) x := by
  have : ∀ (ns : List Node) (s : CSt), s.saver = .absent → s.nTrig = 0 → updates s.hist = 0 →
      (s.loadNodes ns).saver = .absent ∧ (s.loadNodes ns).nTrig = 0 ∧ updates (s.loadNodes ns).hist = 0 := by
    intro ns
    induction ns with
    | nil => intro s h1 h2 h3; exact ⟨h1, h2, h3⟩
    | cons n ns ih => intro s h1 h2 h3; exact ih _ h1 h2 h3
  obtain ⟨h1, h2, h3⟩ := this ns (newController true) rfl rfl rfl
  exact ⟨.inl h1, h2, h3, rfl, rfl⟩

theorem done_heap {s s' : CSt} {l : CLabel} (hd : s.disc = .done) (h : cStep db s l = some s') : s'.nHeap = s.nHeap := by
  ctl_step h
  all_goals first
    | rfl
    | exact put_nHeap ..
    | (simp only [hd, reduceCtorEq] at *; done)

variable {e : Exec (cStep db)}

theorem k_always (hg : GoodFile ns) (h0 : e.st 0 = start true ns) (x : FileAt) (n : Nat) : K (e.st 0) x (e.st n) (fileAt e x n) := by
  have hr : CReach db true ns (e.st 0) := by rw [h0]; exact ⟨[], rfl⟩
  induction n with
  | zero => rw [h0]; exact .inr (.inr (.inr (.inr (start_untouched x))))
  | succ n ih =>
    have := e.next n
    cases hl : e.lab n with
    | none => rw [hl] at this; simp only at this; rw [fileAt, hl, this]; exact ih
    | some l =>
      rw [hl] at this
      rw [fileAt, hl]
      exact k_step (cinv hg (cexec_reach hr n)) (saveInv (cexec_reach hr n)).file this ih

/-- C121: at every moment of every execution: if nothing is pending, then the file says exactly what is known about the nodes, or
no update has come since the start and neither the file nor what is known about the nodes has changed. -/
theorem C121_nothing_pending (hg : GoodFile ns) (h0 : e.st 0 = start true ns) (x : FileAt) (n : Nat) (hp : ¬ Pending (e.st n)) :
    (fileAt e x n).text = saveText (e.st n).nodes ∨
      updates (e.st n).hist = 0 ∧ (fileAt e x n).text = x.text ∧ saveText (e.st n).nodes = saveText (e.st 0).nodes := by
  have hr : CReach db true ns (e.st n) := cexec_reach (by rw [h0]; exact ⟨[], rfl⟩) n
  rcases k_always hg h0 x n with h | h | h | h | h
  · exact absurd (.inl h) hp
  · exact absurd (.inr (.inr (.inl h))) hp
  · obtain ⟨ref, h1, i, h2⟩ := h
    exact absurd (.inr (.inr (.inr ⟨ref, i, h1, h2⟩))) hp
  · refine .inl (h.2.resolve_right fun hb => hp (.inr (.inl ?_)))
    rw [(saveInv hr).busy]; exact hb
  · exact .inr ⟨h.none, h.text, text_json h.json⟩

/-- C121: after the discovery, once no node is being identified and no more updates come, the file says in the end what is known
about the nodes, and goes on saying it; or no update has come since the start and neither has changed. Nothing is assumed about what was saved before.
(Missing: a crash, C73; a saver that has copied the list while it was locked, C47; a node that sleeps while it is identified,
`C121_violated_stale`.) -/
theorem C121_known_in_file_partial (hf : FairCtl e) (hg : GoodFile ns) (h0 : e.st 0 = start true ns) (x : FileAt) (n : Nat)
    (hd : (e.st n).disc = .done) (ha : (e.st n).saver ≠ .absent) (hs : (e.st n).saver ≠ .stuck)
    (hu : ∀ m, n ≤ m → updates (e.st m).hist = updates (e.st n).hist)
    (hi : ∀ id ref i, (id, ref) ∈ (e.st n).list →
      ((e.st n).heap ref).ident i = .absent ∨ ((e.st n).heap ref).ident i = .done) :
    ∃ m, n ≤ m ∧ ((e.st m).crashed ≠ none ∨ ∀ k, m ≤ k → (fileAt e x k).text = saveText (e.st k).nodes ∨
      updates (e.st k).hist = 0 ∧ (fileAt e x k).text = x.text ∧ saveText (e.st k).nodes = saveText (e.st 0).nodes) := by
  have hr : CReach db true ns (e.st 0) := by rw [h0]; exact ⟨[], rfl⟩
  have reach := cexec_reach hr
  have hc := fun m => cinv hg (reach m)
  have stay : ∀ m, n ≤ m → (e.st m).disc = .done ∧ (e.st m).saver ≠ .absent ∧ (e.st m).nHeap = (e.st n).nHeap ∧
      ∀ ref, ref < (e.st n).nHeap → ∀ i, ((e.st m).heap ref).ident i = .absent ∨ ((e.st m).heap ref).ident i = .done := by
    refine exec_keep e (Q := fun s => s.disc = .done ∧ s.saver ≠ .absent ∧ s.nHeap = (e.st n).nHeap ∧
      ∀ ref, ref < (e.st n).nHeap → ∀ i, (s.heap ref).ident i = .absent ∨ (s.heap ref).ident i = .done)
      (fun s l s' h hst => ?_) ⟨hd, ha, rfl, fun ref hlt i => ?_⟩
    · obtain ⟨-, g2, g3, g4, -, -⟩ := Verif.Lemmas.Ctl.left_step h.1 h.2.1 hst
      exact ⟨g2, g3, (done_heap h.1 hst).trans h.2.2.1, fun ref hlt => ident_rests h.1 hst (h.2.2.2 ref hlt)⟩
    · have := ((hc n).known ref hlt).resolve_left (by rw [hd]; simp [DiscAt.adding])
      exact hi _ ref i (Verif.Lemmas.Persist.get_mem this)
  have idle : ∀ m, n ≤ m → hasNode (e.st m).disc = false ∧ ¬ AnyBusy (e.st m) := by
    intro m hm
    obtain ⟨s1, s2, s3, s4⟩ := stay m hm
    refine ⟨by rw [s1]; rfl, fun ⟨ref, h1, i, h2⟩ => ?_⟩
    rcases s4 ref (by omega) i with h | h <;> rw [h] at h2 <;> simp [Underway] at h2
  obtain ⟨m, hm, h⟩ := C97_saved_partial hf hr n hd ha hs hu
  refine ⟨m, hm, h.imp id fun h => ?_⟩
  have all : ∀ k, m ≤ k → unsaved (e.st k).hist = false ∧
      (Acc (e.st k).list (fun r => nodeJson ((e.st k).heap r).node) (e.st k).saver (fileAt e x k) ∧
        (fileAt e x k).text = saveText (e.st k).nodes ∨ Untouched (e.st 0) x (e.st k) (fileAt e x k)) := by
    intro k hk
    induction hk with
    | refl =>
      refine ⟨h.1, ?_⟩
      obtain ⟨i1, i2⟩ := idle m hm
      rcases k_always hg h0 x m with h1 | h1 | h1 | h1 | h1
      · rw [h.1] at h1; cases h1
      · rw [i1] at h1; cases h1
      · exact absurd h1 i2
      · refine .inl ⟨h1.1, h1.2.resolve_right ?_⟩
        rw [← (saveInv (reach m)).busy, h.2]; simp
      · exact .inr h1
    | step hk ih =>
      next k =>
      have hnk : n ≤ k := Nat.le_trans hm hk
      have hst := e.next k
      cases hl : e.lab k with
      | none =>
        rw [hl] at hst
        simp only at hst
        simp only [fileAt, hl, hst]
        exact ih
      | some l =>
        rw [hl] at hst
        obtain ⟨s1, s2, s3, s4⟩ := stay k hnk
        obtain ⟨i1, i2⟩ := idle k hnk
        obtain ⟨j1, j2⟩ := idle (k + 1) (by omega)
        have hus : unsaved (e.st (k + 1)).hist = false :=
          unsaved_stays s2 hst ((hu (k + 1) (by omega)).trans (hu k hnk).symm) ih.1
        refine ⟨hus, ?_⟩
        have hk1 := k_always hg h0 x (k + 1)
        have hsm : (∃ op, l = .saver op) ∨ isSaver l = false ∧ Same (e.st k) (e.st (k + 1)) := by
          by_cases hl' : isSaver l = true
          · cases l <;> first | cases hl' | skip
            exact .inl ⟨_, rfl⟩
          · refine .inr ⟨by simpa using hl', ?_⟩
            have hne : l ≠ .startSaver := fun he => s2 (saver_absent (he ▸ hst))
            rcases quiet_same (hc k) hst i1 (by simpa using hl') hne with q | q | q | q
            · rw [j1] at q; cases q
            · exact absurd q j2
            · rw [hus] at q; cases q
            · exact q
        rcases ih.2 with h2 | h2
        · have hjs : json (e.st (k + 1)) = json (e.st k) := by
            rcases hsm with ⟨op, rfl⟩ | hsm
            · obtain ⟨f1, f2, -⟩ := saver_frame hst
              simp [json, f1, f2]
            · exact same_json hsm.2
          rcases hk1 with h1 | h1 | h1 | h1 | h1
          · rw [hus] at h1; cases h1
          · rw [j1] at h1; cases h1
          · exact absurd h1 j2
          · refine .inl ⟨h1.1, ?_⟩
            rw [text_json hjs]
            simp only [fileAt, hl]
            refine text_next (L := (e.st k).list) (J := fun r => nodeJson ((e.st k).heap r).node) ?_ h2.1 h2.2
            intro l' h'
            exact saveText_congr (by rw [h']; simp [CSt.nodes])
          · exact .inr h1
        · refine .inr ?_
          rcases hsm with ⟨op, rfl⟩ | ⟨hl', q⟩
          · exact (untouched_rests h2 hst).elim
          · simp only [fileAt, hl, next_other hl']
            exact ⟨by rw [q.saver]; exact h2.saver, by rw [q.trig]; exact h2.trig, by rw [q.upd]; exact h2.none,
              by rw [same_json q]; exact h2.json, h2.text⟩
  intro k hk
  rcases (all k hk).2 with h1 | h1
  · exact .inl h1.2
  · exact .inr ⟨h1.none, h1.text, text_json h1.json⟩

/-- A fair execution in which a node was found, identified and saved and nothing is pending from moment 52 on (and the hypotheses of
`C121_known_in_file_partial` hold); before that, things are pending. -/
example : ∃ e : Exec (cStep demoDB), FairCtl e ∧ e.st 0 = start true [] ∧ Pending (e.st 20) ∧ Pending (e.st 47) ∧
    (∀ n, 52 ≤ n → ¬ Pending (e.st n) ∧ (e.st n).list = [(2, 0)] ∧ (e.st n).disc = .done ∧ (e.st n).saver = .idle ∧
      updates (e.st n).hist = 4 ∧
      ∀ id ref i, (id, ref) ∈ (e.st n).list → ((e.st n).heap ref).ident i = .absent ∨ ((e.st n).heap ref).ident i = .done) := by
  have hrun : (cRun demoDB (start true []) identifiedRun).map (fun s => cRestB s && s.crashed.isNone && updates s.hist == 4 &&
      decide (s.disc = .done) && decide (s.saver = .idle) && !unsaved s.hist && !saving s.hist && decide (s.list = [(2, 0)]) &&
      decide ((s.heap 0).nIdent = 1) && decide ((s.heap 0).ident 0 = .done) && decide (s.nHeap = 1)) = some true := by decide +kernel
  cases hr : cRun demoDB (start true []) identifiedRun with
  | none => rw [hr] at hrun; cases hrun
  | some s =>
    rw [hr] at hrun
    simp only [Option.map_some, Option.some.injEq, Bool.and_eq_true, Option.isNone_iff_eq_none, decide_eq_true_eq,
      beq_iff_eq, Bool.not_eq_true'] at hrun
    obtain ⟨⟨⟨⟨⟨⟨⟨⟨⟨⟨h1, h2⟩, h3⟩, h4⟩, h5⟩, h6⟩, h7⟩, h8⟩, h9⟩, h10⟩, h11⟩ := hrun
    have hc : CInv s := cinv noFileGood ⟨_, hr⟩
    have hid : ∀ ref i, ref < 1 → (s.heap ref).ident i = .absent ∨ (s.heap ref).ident i = .done := by
      intro ref i hlt
      have : ref = 0 := by omega
      subst this
      by_cases hi : i = 0
      · subst hi; exact .inr h10
      · exact .inl ((hc.safe 0 (by omega)).wake.fresh i (by omega))
    have v : ∀ n (p : CSt → Bool), n ≤ identifiedRun.length →
        (cRun demoDB (start true []) (identifiedRun.take n)).map p = some true →
        p ((cexecOf demoDB _ identifiedRun s hr h2).st n) = true := by
      intro n p hn hp
      cases ht : cRun demoDB (start true []) (identifiedRun.take n) with
      | none => rw [ht] at hp; cases hp
      | some t => rw [ht] at hp; rw [cexecOf_mid hr h2 n hn ht]; simpa using hp
    refine ⟨cexecOf demoDB _ identifiedRun s hr h2, cquiet_fair hr h2 (cquiet_of_rest hc h1), cexecOf_start .., ?_, ?_, fun n hn => ?_⟩
    · exact .inl (v 20 (fun s => unsaved s.hist) (by decide) (by decide +kernel))
    · exact .inr (.inl (v 47 (fun s => saving s.hist) (by decide) (by decide +kernel)))
    · rw [cexecOf_end hr h2 n hn]
      refine ⟨?_, h8, h4, h5, h3, ?_⟩
      · rintro (h | h | h | ⟨ref, i, h, h'⟩)
        · change unsaved s.hist = true at h; rw [h6] at h; cases h
        · change saving s.hist = true at h; rw [h7] at h; cases h
        · change hasNode s.disc = true at h; rw [h4] at h; cases h
        · change ref < s.nHeap at h
          change Underway ((s.heap ref).ident i) at h'
          rcases hid ref i (by omega) with hx | hx <;> rw [hx] at h' <;> simp [Underway] at h'
      · intro id ref i hl
        change (id, ref) ∈ s.list at hl
        rw [h8] at hl
        simp only [List.mem_singleton, Prod.mk.injEq] at hl
        exact hid ref i (by omega)

end Verif.Props
