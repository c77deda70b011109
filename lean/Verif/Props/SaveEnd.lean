import Verif.Spec.SaveEnd
import Verif.Props.CtlFair
import Verif.Props.Persist

/-
C121: what is known about the nodes is in the end in the file.
-/

set_option linter.unusedSimpArgs false
set_option linter.unusedVariables false
set_option maxHeartbeats 1000000

namespace Verif.Props

open Verif.Go Verif.Model Verif.Spec Verif.Spec.SaveEnd Verif.Lemmas Verif.Lemmas.NodeM Verif.Lemmas.Ctl

/-! ### The text depends on the nodes' JSON only -/

theorem insertKey_map {α β : Type} (f : α → β) (e : List Char × α) (l : List (List Char × α)) :
    (insertKey e l).map (fun x => (x.1, f x.2)) = insertKey (e.1, f e.2) (l.map fun x => (x.1, f x.2)) := by
  induction l with
  | nil => rfl
  | cons x l ih => 
    simp only [insertKey, List.map_cons]
    split <;> simp [ih]

theorem sortKeys_map {α β : Type} (f : α → β) (l : List (List Char × α)) :
    (sortKeys l).map (fun x => (x.1, f x.2)) = sortKeys (l.map fun x => (x.1, f x.2)) := by
  induction l with
  | nil => rfl
  | cons x l ih => simp only [sortKeys, List.map_cons, insertKey_map, ih]

theorem saveText_congr {l l' : GoMap Int Node} (h : l.map (fun e => (e.1, nodeJson e.2)) = l'.map fun e => (e.1, nodeJson e.2)) :
    saveText l = saveText l' := by
  unfold saveText controllerJson listJson mapJson
  simp only [sortKeys_map, List.map_map, Function.comp_def]
  have : ∀ l : GoMap Int Node, l.map (fun e => (intLit e.1, nodeJson e.2)) =
      (l.map fun e => (e.1, nodeJson e.2)).map fun e => (intLit e.1, e.2) := by intro l; simp
  rw [this l, this l', h]

theorem zip_text {keys : List Int} {acc : List Node} {L : GoMap Int Nat} {J : Nat → Json} (h1 : keys = L.map Prod.fst)
    (h2 : acc.map nodeJson = (L.map Prod.snd).map J) :
    (keys.zip acc).map (fun e => (e.1, nodeJson e.2)) = L.map fun e => (e.1, J e.2) := by
  subst h1
  induction L generalizing acc with
  | nil => simp
  | cons x L ih =>
    cases acc with
    | nil => simp at h2
    | cons n acc =>
      simp only [List.map_cons, List.cons.injEq] at h2
      simp only [List.map_cons, List.zip_cons_cons, h2.1, ih h2.2]

/-! ### A save that began late enough -/

/-- The save in progress has the list `L` and the nodes' JSON `J`. -/
def Acc (L : GoMap Int Nat) (J : Nat → Json) (sv : SaverAt) (x : FileAt) : Prop :=
  match sv with
  | .enc todo => x.keys = L.map Prod.fst ∧ ∃ pre, L.map Prod.snd = pre ++ todo ∧ x.acc.map nodeJson = pre.map J
  | .write => x.keys = L.map Prod.fst ∧ x.acc.map nodeJson = (L.map Prod.snd).map J
  | _ => True

theorem put_unsaved {s : CSt} {ref : Nat} {n : NSt} (hu : updates (s.put ref n).hist = updates s.hist) :
    unsaved (s.put ref n).hist = unsaved s.hist ∧ (s.put ref n).saver = s.saver := by
  unfold CSt.put at hu ⊢
  dsimp only at hu ⊢
  split at hu
  · simp [CSt.push, updates] at hu
  · next hn => rw [if_neg hn]; exact ⟨rfl, rfl⟩

theorem other_step {db : DB} {s s' : CSt} {l : CLabel} (ha : s.saver ≠ .absent) (h : cStep db s l = some s')
    (hl : isSaver l = false) (hu : updates s'.hist = updates s.hist) :
    unsaved s'.hist = unsaved s.hist ∧ s'.saver = s.saver := by
  ctl_step h
  all_goals first
    | exact ⟨rfl, rfl⟩
    | (cases hl; done)
    | (exact absurd (by assumption) ha)
    | exact put_unsaved hu
    | (have := put_unsaved hu; simpa [unsaved, updates] using this)
    | (simp [CSt.push, unsaved, updates] at hu ⊢; done)

/-- Something is still to be saved, or the save in progress will write the right text, or it is in the file. -/
def Due (L : GoMap Int Nat) (J : Nat → Json) (T : List Char) (s : CSt) (x : FileAt) : Prop :=
  unsaved s.hist = true ∨ Acc L J s.saver x ∧ (x.text = T ∨ SaverAt.busy s.saver = true)

theorem due_step {db : DB} {L : GoMap Int Nat} {J : Nat → Json} {T : List Char} {s s' : CSt} {l : CLabel} {x : FileAt}
    (hT : ∀ l' : GoMap Int Node, l'.map (fun e => (e.1, nodeJson e.2)) = L.map (fun e => (e.1, J e.2)) → saveText l' = T)
    (hL : s.list = L) (hJ : ∀ e ∈ L, nodeJson (s.heap e.2).node = J e.2) (hf : s.hasFile = true) (ha : s.saver ≠ .absent)
    (hlk : s.disc.locks = false) (hwr : s.disc.writes = false) (h : cStep db s l = some s')
    (hu : updates s'.hist = updates s.hist) (hi : Due L J T s x) :
    Due L J T s' (x.next s (some l)) := by
  by_cases hl : isSaver l = false
  · obtain ⟨h1, h2⟩ := other_step ha h hl hu
    have : x.next s (some l) = x := by
      unfold FileAt.next
      cases l <;> first | rfl | cases hl
    rw [this]
    unfold Due
    rw [h1, h2]
    exact hi
  · cases l <;> first | exact absurd rfl hl | skip
    next op =>
    unfold cStep at h
    split at h
    · cases h
    simp only at h
    unfold saverStep at h
    unfold Due at hi ⊢
    unfold FileAt.next
    cases hv : s.saver with
    | absent => exact absurd hv ha
    | cmpNodes todo =>
      cases op <;> cases todo <;> simp only [hv, reduceCtorEq] at h hi ⊢
      all_goals (injection h with h; subst h; simp_all [Acc, SaverAt.busy])
    | enc todo =>
      cases op <;> cases todo <;> simp only [hv, reduceCtorEq] at h hi ⊢
      · injection h with h; subst h
        simp only [Acc, SaverAt.busy, List.append_nil] at hi ⊢
        rcases hi with hi | ⟨⟨h1, pre, h2, h3⟩, -⟩
        · exact .inl hi
        · exact .inr ⟨⟨h1, by rw [h2]; exact h3⟩, .inr trivial⟩
      · next ref todo =>
        injection h with h; subst h
        simp only [Acc, SaverAt.busy] at hi ⊢
        rcases hi with hi | ⟨⟨h1, pre, h2, h3⟩, -⟩
        · exact .inl hi
        · refine .inr ⟨⟨h1, pre ++ [ref], by simp [h2], ?_⟩, .inr trivial⟩
          have hm : ref ∈ L.map Prod.snd := by rw [h2]; simp
          obtain ⟨e, he, rfl⟩ := List.mem_map.1 hm
          simp [h3, hJ e he]
    | write =>
      cases op <;> simp only [hv, reduceCtorEq] at h hi ⊢
      injection h with h; subst h
      simp only [Acc, SaverAt.busy, unsaved] at hi ⊢
      rcases hi with hi | ⟨⟨h1, h2⟩, -⟩
      · exact .inl hi
      · exact .inr ⟨trivial, .inl (hT _ (zip_text h1 h2))⟩
    | iter =>
      cases op <;> simp only [hv, hwr, reduceCtorEq, Bool.false_eq_true, false_and, if_false] at h hi ⊢
      injection h with h; subst h
      simp only [Acc, SaverAt.busy] at hi ⊢
      exact .inr ⟨⟨by rw [hL], [], by simp [hL], by simp⟩, .inr trivial⟩
    | idle =>
      cases op <;> simp only [hv, reduceCtorEq] at h hi ⊢
      split at h
      · injection h with h; subst h; simpa [Acc, SaverAt.busy, unsaved] using hi
      · cases h
    | window t =>
      cases op <;> simp only [hv, hf, if_true, reduceCtorEq] at h hi ⊢
      all_goals (split at h <;> first | (cases h; done) | skip)
      · injection h with h; subst h; simpa [Acc, SaverAt.busy, unsaved] using hi
      · injection h with h; subst h; exact .inr ⟨trivial, .inr rfl⟩
    | cmp =>
      cases op <;> simp only [hv, hwr, reduceCtorEq, Bool.false_eq_true, false_and, if_false] at h hi ⊢
      all_goals (injection h with h; subst h; simp [Acc, SaverAt.busy])
    | copy =>
      cases op <;> simp only [hv, hlk, reduceCtorEq, Bool.false_eq_true, if_false] at h hi ⊢
      injection h with h; subst h; simp [Acc, SaverAt.busy]
    | stuck => cases op <;> simp only [hv, reduceCtorEq] at h

theorem unsaved_stays {db : DB} {s s' : CSt} {l : CLabel} (ha : s.saver ≠ .absent) (h : cStep db s l = some s')
    (hu : updates s'.hist = updates s.hist) (hi : unsaved s.hist = false) : unsaved s'.hist = false := by
  by_cases hl : isSaver l = false
  · rw [(other_step ha h hl hu).1]; exact hi
  · cases l <;> first | exact absurd rfl hl | skip
    ctl_step h
    all_goals simp_all [unsaved]

theorem text_next {L : GoMap Int Nat} {J : Nat → Json} {T : List Char} {s : CSt} {l : CLabel} {x : FileAt}
    (hT : ∀ l' : GoMap Int Node, l'.map (fun e => (e.1, nodeJson e.2)) = L.map (fun e => (e.1, J e.2)) → saveText l' = T)
    (ha : Acc L J s.saver x) (ht : x.text = T) : (x.next s (some l)).text = T := by
  unfold FileAt.next
  split
  · exact ht
  · exact ht
  · next h1 h2 =>
    rw [h2] at ha
    exact hT _ (zip_text ha.1 ha.2)
  · exact ht

variable {db : DB} {ns : List Node} {e : Exec (cStep db)}

/-- C121: after the last update, if the nodes stay as they are, the file says in the end what is known about them. (Missing: a save that
a report kills, C73; a saver that has copied the list while it was locked, C47; changes that push no update.) -/
theorem C121_file_in_the_end_partial (hf : FairCtl e) (hr : CReach db true ns (e.st 0)) (x : FileAt) (n : Nat)
    (hd : (e.st n).disc = .done) (ha : (e.st n).saver ≠ .absent) (hs : (e.st n).saver ≠ .stuck)
    (hp : unsaved (e.st n).hist = true) (hu : ∀ m, n ≤ m → updates (e.st m).hist = updates (e.st n).hist)
    (hq : ∀ m, n ≤ m → ∀ id ref, (id, ref) ∈ (e.st n).list →
      nodeJson ((e.st m).heap ref).node = nodeJson ((e.st n).heap ref).node) :
    ∃ m, n ≤ m ∧ ((e.st m).crashed ≠ none ∨ ∀ k, m ≤ k → (fileAt e x k).text = saveText (e.st k).nodes) := by
  have reach : ∀ m, CReach db true ns (e.st m) := by
    exact cexec_reach hr
  have stay : ∀ m, n ≤ m → (e.st m).disc = .done ∧ (e.st m).saver ≠ .absent ∧ (e.st m).list = (e.st n).list := by
    refine exec_keep e (Q := fun s => s.disc = .done ∧ s.saver ≠ .absent ∧ s.list = (e.st n).list) (fun s l s' h hst => ?_) ⟨hd, ha, rfl⟩
    obtain ⟨-, g2, g3, g4, -, -⟩ := Verif.Lemmas.Ctl.left_step h.1 h.2.1 hst
    exact ⟨g2, g3, g4.trans h.2.2⟩
  have hT : ∀ l' : GoMap Int Node, l'.map (fun e => (e.1, nodeJson e.2)) =
      (e.st n).list.map (fun a => (a.1, nodeJson ((e.st n).heap a.2).node)) → saveText l' = saveText (e.st n).nodes := by
    intro l' h
    exact saveText_congr (by rw [h]; simp [CSt.nodes])
  have same : ∀ m, n ≤ m → saveText (e.st m).nodes = saveText (e.st n).nodes := by
    intro m hm
    refine hT _ ?_
    simp only [CSt.nodes, (stay m hm).2.2, List.map_map, Function.comp_def]
    refine List.map_congr_left fun a hal => ?_
    rw [hq m hm a.1 a.2 hal]
  have due : ∀ m, n ≤ m → Due (e.st n).list (fun ref => nodeJson ((e.st n).heap ref).node) (saveText (e.st n).nodes) (e.st m)
      (fileAt e x m) := by
    intro m hm
    induction hm with
    | refl => exact .inl hp
    | step hm ih =>
      next m =>
      have := e.next m
      cases hl : e.lab m with
      | none =>
        rw [hl] at this
        simp only at this
        simp only [fileAt, hl, this]
        exact ih
      | some l =>
        rw [hl] at this
        simp only [fileAt, hl]
        obtain ⟨s1, s2, s3⟩ := stay m hm
        exact due_step hT s3 (fun a hal => hq m hm a.1 a.2 hal) (saveInv (reach m)).file s2 (by rw [s1]; rfl) (by rw [s1]; rfl) this
          ((hu (m + 1) (Nat.le_succ_of_le hm)).trans (hu m hm).symm) ih
  obtain ⟨m, hm, h⟩ := C97_saved_partial hf hr n hd ha hs hu
  refine ⟨m, hm, h.imp id fun h k hk => ?_⟩
  rw [same k (Nat.le_trans hm hk)]
  have hb : SaverAt.busy (e.st m).saver = false := by rw [← (saveInv (reach m)).busy]; exact h.2
  have all : ∀ k, m ≤ k → unsaved (e.st k).hist = false ∧ (fileAt e x k).text = saveText (e.st n).nodes := by
    intro k hk
    induction hk with
    | refl =>
      refine ⟨h.1, ?_⟩
      rcases due m hm with h1 | ⟨-, h1 | h1⟩
      · rw [h.1] at h1; cases h1
      · exact h1
      · rw [hb] at h1; cases h1
    | step hk ih =>
      next k =>
      have hnk : n ≤ k := Nat.le_trans hm hk
      have := e.next k
      cases hl : e.lab k with
      | none =>
        rw [hl] at this
        simp only at this
        simp only [fileAt, hl, this]
        exact ih
      | some l =>
        rw [hl] at this
        simp only [fileAt, hl]
        refine ⟨unsaved_stays (stay k hnk).2.1 this ((hu (k + 1) (by omega)).trans (hu k hnk).symm) ih.1, ?_⟩
        rcases due k hnk with h1 | ⟨h1, -⟩
        · rw [ih.1] at h1; cases h1
        · exact text_next hT h1 ih.2
  exact (all k hk).2

/-! ### Which changes push no update -/

/-- The identification is at one of the places where it changes what is saved without pushing an update: the command classes
(node.go 176-180) and the endpoints (request_endpoints.go 20, 47-74). -/
def Silent (p : IdentAt) : Prop := p = .classes ∨ p = .send .endpoints ∨ p = .reply .endpoints

theorem node_pushes {x x' : NSt} {l : NLabel} (h : nodeStep db x l = some x') (hi : ∀ i a, l = .ident i a → ¬ Silent (x.ident i)) :
    nodeJson x'.node = nodeJson x.node ∨ nodePushes x < nodePushes x' := by
  have hp : ∀ h : List NEv, List.countP (fun e => decide (e = NEv.pushed)) h <
      List.countP (fun e => decide (e = NEv.pushed)) (.pushed :: h) := by intro h; simp
  node_step h
  all_goals first
    | exact .inl rfl
    | exact .inr (hp _)
    | (exfalso; refine hi _ _ rfl ?_; simp only [Silent]; grind)

theorem put_pushes {s : CSt} {r : Nat} {n : NSt} (hc : n.node.hasConn = true) (hp : nodePushes (s.heap r) < nodePushes n) :
    updates (s.put r n).hist = updates s.hist + 1 := by
  unfold CSt.put
  dsimp only
  rw [if_pos ⟨hp, hc⟩]
  simp [CSt.push, updates]

theorem ctl_pushes {s s' : CSt} {l : CLabel} (hc : CInv s) (hd : s.disc = .done) (h : cStep db s l = some s')
    (hu : updates s'.hist = updates s.hist) {ref : Nat}
    (hs : ∀ i a, l = .node ref (.ident i a) → ¬ Silent ((s.heap ref).ident i)) :
    nodeJson (s'.heap ref).node = nodeJson (s.heap ref).node := by
  have hcn := hc.conn
  have hraw : DiscAt.raw s.disc = none := by rw [hd]; rfl
  have key : ∀ (r : Nat) (n : NSt) (nl : NLabel) (t : CSt), r < s.nHeap → t.heap = s.heap → updates t.hist = updates s.hist →
      nodeStep db (s.heap r) nl = some n → (nl = .setup → False) →
      (r = ref → ∀ i a, nl = .ident i a → ¬ Silent ((s.heap ref).ident i)) →
      updates (t.put r n).hist = updates s.hist → nodeJson ((t.put r n).heap ref).node = nodeJson (s.heap ref).node := by
    intro r n nl t hlt ht hh hn hns hsil hup
    rw [put_heap, ht]
    by_cases he : ref = r
    · subst he
      simp only [updN, if_pos]
      rcases node_pushes hn (hsil rfl) with h1 | h1
      · exact h1
      · have : n.node.hasConn = true := by
          have hx : (s.heap ref).node.hasConn = true := (hcn ref hlt).resolve_left (by rw [hraw]; simp)
          rw [(frame_step hn).hasConn, hx]; rfl
        rw [put_pushes this (by rw [ht]; exact h1)] at hup
        omega
    · simp [updN, he]
  ctl_step h
  all_goals try (simp only [hd, reduceCtorEq] at *; done)
  all_goals first
    | rfl
    | (refine key _ _ _ _ ?_ ?_ ?_ (by assumption) ?_ ?_ hu <;> first
        | rfl
        | assumption
        | exact hc.dref _ _ (by rename_i hx _ _; rw [hx]; rfl)
        | (intro e; cases e; done)
        | (intro e i a hi; subst e; injection hi with h1 h2; subst h1; exact hs _ _ rfl)
        | (intro e i a hi; cases hi; done))

theorem silent_none (p : IdentAt) (h : p = .absent ∨ p = .done) : ¬ Silent p := by
  rcases h with rfl | rfl <;> simp [Silent]

theorem node_rests {x x' : NSt} {l : NLabel} (h : nodeStep db x l = some x') (hl : l = .identify → False)
    (hi : ∀ i, x.ident i = .absent ∨ x.ident i = .done) : ∀ i, x'.ident i = .absent ∨ x'.ident i = .done := by
  node_step h
  all_goals first
    | exact hi
    | (exfalso; exact hl rfl)
    | (rename_i i _ _; have := hi i; grind)
    | (intro j; have := hi j; grind [updN])

theorem ident_rests {s s' : CSt} {l : CLabel} (hd : s.disc = .done) (h : cStep db s l = some s') {ref : Nat}
    (hi : ∀ i, (s.heap ref).ident i = .absent ∨ (s.heap ref).ident i = .done) :
    ∀ i, (s'.heap ref).ident i = .absent ∨ (s'.heap ref).ident i = .done := by
  have key : ∀ (r : Nat) (n : NSt) (nl : NLabel) (t : CSt), t.heap = s.heap → nodeStep db (s.heap r) nl = some n →
      (nl = .identify → False) → ∀ i, ((t.put r n).heap ref).ident i = .absent ∨ ((t.put r n).heap ref).ident i = .done := by
    intro r n nl t ht hn hnl i
    rw [put_heap, ht]
    by_cases he : ref = r
    · subst he
      simp only [updN, if_pos]
      exact node_rests hn hnl hi i
    · simp only [updN, he, if_false]
      exact hi i
  ctl_step h
  all_goals try (simp only [hd, reduceCtorEq] at *; done)
  all_goals first
    | exact hi
    | (refine key _ _ _ _ ?_ (by assumption) ?_ <;> first | rfl | (intro e; cases e; done))

theorem done_step {s s' : CSt} {l : CLabel} (h : s.disc = .done) (hs : cStep db s l = some s') : s'.disc = .done := by
  obtain ⟨h1, h2⟩ := disc_left (by rw [h]; rfl) hs
  rw [h] at h2
  simp only [discLeft] at h2
  cases hx : s'.disc <;> simp_all [discLeft, DiscAt.before]

/-- C121: the same, if no identification is at one of the three places where what is saved is changed and nothing pushed: then the
nodes stay as they are because no update is pushed. -/
theorem C121_updates_suffice_partial (hf : FairCtl e) (hg : GoodFile ns) (hr : CReach db true ns (e.st 0)) (x : FileAt) (n : Nat)
    (hd : (e.st n).disc = .done) (ha : (e.st n).saver ≠ .absent) (hs : (e.st n).saver ≠ .stuck)
    (hp : unsaved (e.st n).hist = true) (hu : ∀ m, n ≤ m → updates (e.st m).hist = updates (e.st n).hist)
    (hq : ∀ m, n ≤ m → ∀ id ref i, (id, ref) ∈ (e.st n).list → ¬ Silent (((e.st m).heap ref).ident i)) :
    ∃ m, n ≤ m ∧ ((e.st m).crashed ≠ none ∨ ∀ k, m ≤ k → (fileAt e x k).text = saveText (e.st k).nodes) := by
  refine C121_file_in_the_end_partial hf hr x n hd ha hs hp hu fun m hm id ref hmem => ?_
  have : (e.st m).disc = .done ∧ nodeJson ((e.st m).heap ref).node = nodeJson ((e.st n).heap ref).node := by
    induction hm with
    | refl => exact ⟨hd, rfl⟩
    | step hm ih =>
      next m =>
      have hst := e.next m
      cases hl : e.lab m with
      | none => rw [hl] at hst; simp only at hst; rw [hst]; exact ih
      | some l =>
        rw [hl] at hst
        refine ⟨done_stays n hd _ (Nat.le_succ_of_le hm), ?_⟩
        rw [← ih.2]
        exact ctl_pushes (cinv hg (cexec_reach hr m)) ih.1 hst ((hu (m + 1) (Nat.le_succ_of_le hm)).trans (hu m hm).symm)
          fun i a _ => hq m hm id ref i hmem
  exact this.2

/-- C121: once the discovery is over and no identification is under way, what is known about the nodes is in the end in the file,
whenever the last update was pushed. -/
theorem C121_identified_partial (hf : FairCtl e) (hg : GoodFile ns) (hr : CReach db true ns (e.st 0)) (x : FileAt) (n : Nat)
    (hd : (e.st n).disc = .done) (ha : (e.st n).saver ≠ .absent) (hs : (e.st n).saver ≠ .stuck)
    (hp : unsaved (e.st n).hist = true) (hu : ∀ m, n ≤ m → updates (e.st m).hist = updates (e.st n).hist)
    (hi : ∀ id ref i, (id, ref) ∈ (e.st n).list →
      ((e.st n).heap ref).ident i = .absent ∨ ((e.st n).heap ref).ident i = .done) :
    ∃ m, n ≤ m ∧ ((e.st m).crashed ≠ none ∨ ∀ k, m ≤ k → (fileAt e x k).text = saveText (e.st k).nodes) := by
  refine C121_updates_suffice_partial hf hg hr x n hd ha hs hp hu fun m hm id ref i hl => silent_none _ ?_
  have : (e.st m).disc = .done ∧ ∀ i, ((e.st m).heap ref).ident i = .absent ∨ ((e.st m).heap ref).ident i = .done :=
    exec_keep e (Q := fun s => s.disc = .done ∧ ∀ i, (s.heap ref).ident i = .absent ∨ (s.heap ref).ident i = .done)
      (fun s l s' h hst => ⟨done_step h.1 hst, ident_rests h.1 hst h.2⟩) ⟨hd, fun i => hi id ref i hl⟩ m hm
  exact this.2 i

/-- C121: a restart after that finds every node as it was, and no other node. -/
theorem C121_restart_partial (hf : FairCtl e) (hg : GoodFile ns) (hr : CReach db true ns (e.st 0)) (x : FileAt) (n : Nat)
    (hd : (e.st n).disc = .done) (ha : (e.st n).saver ≠ .absent) (hs : (e.st n).saver ≠ .stuck)
    (hp : unsaved (e.st n).hist = true) (hu : ∀ m, n ≤ m → updates (e.st m).hist = updates (e.st n).hist)
    (hi : ∀ id ref i, (id, ref) ∈ (e.st n).list →
      ((e.st n).heap ref).ident i = .absent ∨ ((e.st n).heap ref).ident i = .done)
    (h0 : Life db (e.st 0)) (hl : ∀ m l, e.lab m = some l → SensibleC l) :
    ∃ m, n ≤ m ∧ ((e.st m).crashed ≠ none ∨ ∀ k, m ≤ k → ∀ (o o' : Order) (f : Bool),
      ∃ c, loadConfig o o' (some (fileAt e x k).text) (newController f) = .ret false c ∧
        (∀ id v, (e.st k).nodes.get id = some v → ∃ v', c.nodes.get id = some v' ∧ Restored v v') ∧
        ∀ id, (e.st k).nodes.get id = none → c.nodes.get id = none) := by
  obtain ⟨m, hm, h⟩ := C121_identified_partial hf hg hr x n hd ha hs hp hu hi
  refine ⟨m, hm, h.imp id fun h k hk o o' f => ?_⟩
  have life : ∀ k, Life db (e.st k) := by
    intro k
    induction k with
    | zero => exact h0
    | succ k ih =>
      have := e.next k
      cases hk : e.lab k with
      | none => rw [hk] at this; simp only at this; rw [this]; exact ih
      | some l => rw [hk] at this; exact .step ih (hl k l hk) this
  rw [h k hk]
  exact C48_restored db _ (life k) o o' f

/-! ### Cases -/

/-- The file after a run. -/
def fileOf (db : DB) : CSt → FileAt → List CLabel → FileAt
  | _, x, [] => x
  | s, x, l :: ls => match cStep db s l with
    | some s' => fileOf db s' (x.next s (some l)) ls
    | none => x

theorem fileOf_snoc {s0 t : CSt} {ls : List CLabel} {l : CLabel} (x : FileAt) (h : cRun db s0 ls = some t) (hl : cStep db t l ≠ none) :
    fileOf db s0 x (ls ++ [l]) = (fileOf db s0 x ls).next t (some l) := by
  induction ls generalizing s0 x with
  | nil =>
    simp only [cRun, Option.some.injEq] at h
    subst h
    simp only [List.nil_append, fileOf]
    cases hs : cStep db s0 l with
    | none => exact absurd hs hl
    | some s' => rfl
  | cons a ls ih =>
    simp only [cRun] at h
    simp only [List.cons_append, fileOf]
    cases hs : cStep db s0 a with
    | none => rw [hs] at h; cases h
    | some s' => rw [hs] at h; exact ih _ h

theorem file_take {s0 s : CSt} {ls : List CLabel} (h : cRun db s0 ls = some s) (hc : s.crashed = none) (x : FileAt) (k : Nat)
    (hk : k ≤ ls.length) : fileAt (cexecOf db s0 ls s h hc) x k = fileOf db s0 x (ls.take k) := by
  induction k with
  | zero => simp [fileAt, fileOf]
  | succ k ih =>
    have hlt : k < ls.length := hk
    have hg : ls[k]? = some ls[k] := List.getElem?_eq_getElem hlt
    have hlab : (cexecOf db s0 ls s h hc).lab k = some ls[k] := by simp [cexecOf, hg]
    have hn := (cexecOf db s0 ls s h hc).next k
    rw [hlab] at hn
    have hrun : ∃ t, cRun db s0 (ls.take k) = some t := by
      have h' := h
      rw [← List.take_append_drop k ls, cRun_append] at h'
      cases hr : cRun db s0 (ls.take k) with
      | none => rw [hr] at h'; cases h'
      | some t => exact ⟨t, rfl⟩
    obtain ⟨t, ht⟩ := hrun
    have hst := cexecOf_mid h hc k (Nat.le_of_lt hlt) ht
    rw [fileAt, ih (Nat.le_of_lt hlt), hlab, List.take_add_one, hg]
    simp only [Option.toList_some]
    rw [fileOf_snoc x ht (by rw [← hst]; simp only at hn; rw [hn]; simp), hst]

theorem file_rests {s0 s : CSt} {ls : List CLabel} (h : cRun db s0 ls = some s) (hc : s.crashed = none) (x : FileAt) (n : Nat)
    (hn : ls.length ≤ n) : fileAt (cexecOf db s0 ls s h hc) x n = fileOf db s0 x ls := by
  induction hn with
  | refl => rw [file_take h hc x _ (Nat.le_refl _), List.take_length]
  | step hn ih =>
    next n =>
    have hg : ls[n]? = none := by simpa using hn
    have hlab : (cexecOf db s0 ls s h hc).lab n = some (.tick 1) := by simp [cexecOf, hg]
    rw [fileAt, hlab, ih]
    rfl

/-- The first identification of the first node goes on without an answer. -/
def goOn : CLabel := .node 0 (.ident 0 .nothing)

/-- A save, ten seconds after an update. -/
def saveOnce : List CLabel :=
  [.saver .trigger, .tick 10000, .saver .timer, .saver .differ, .saver .go, .saver .go, .saver .go, .saver .go, .saver .go]

/-- A battery powered node is found, its protocol info is read and saved, and then it sleeps. -/
def asleepRun : List CLabel :=
  discOne ++ [.startSaver, goOn, .node 0 (.ident 0 (.info (demoInfo false)))] ++ saveOnce ++ List.replicate 6 goOn

/-- C121 is false for the command classes: they are set after the last update (node.go 176-180) and not saved until another one is
pushed. In this fair execution without a crash every update was saved, the identification waits for the node, and the file never
says what is known about the node. -/
theorem C121_violated_stale : ∃ e : Exec (cStep demoDB), FairCtl e ∧ CReach demoDB true [] (e.st 0) ∧ ∃ n, ∀ m, n ≤ m →
    (e.st m).crashed = none ∧ (e.st m).disc = .done ∧ (e.st m).saver = .idle ∧ updates (e.st m).hist = 1 ∧
    unsaved (e.st m).hist = false ∧ ((e.st m).heap 0).ident 0 = .awWait .manufacturer (some 0) ∧
    (fileAt e ⟨[], [], []⟩ m).text ≠ saveText (e.st m).nodes := by
  have hrun : (cRun demoDB (start true []) asleepRun).map (fun s => cRestB s && s.crashed.isNone && decide (s.disc = .done) &&
      decide (s.saver = .idle) && updates s.hist == 1 && unsaved s.hist == false &&
      decide ((s.heap 0).ident 0 = .awWait .manufacturer (some 0)) &&
      decide ((fileOf demoDB (start true []) ⟨[], [], []⟩ asleepRun).text ≠ saveText s.nodes)) = some true := by decide +kernel
  cases hr : cRun demoDB (start true []) asleepRun with
  | none => rw [hr] at hrun; cases hrun
  | some s =>
    rw [hr] at hrun
    simp only [Option.map_some, Option.some.injEq, Bool.and_eq_true, Option.isNone_iff_eq_none, decide_eq_true_eq,
      beq_iff_eq] at hrun
    obtain ⟨⟨⟨⟨⟨⟨⟨h1, h2⟩, h3⟩, h4⟩, h5⟩, h6⟩, h7⟩, h8⟩ := hrun
    refine ⟨cexecOf demoDB _ asleepRun s hr h2, cquiet_fair hr h2 (cquiet_of_rest (cinv noFileGood ⟨_, hr⟩) h1),
      by rw [cexecOf_start]; exact ⟨[], rfl⟩, asleepRun.length, fun m hm => ?_⟩
    rw [file_rests hr h2 _ m hm, cexecOf_end hr h2 m hm]
    exact ⟨h2, h3, h4, h5, h6, h7, h8⟩

/-- A mains powered node is found and identified, and this is saved. -/
def identifiedRun : List CLabel :=
  discOne ++ [.startSaver] ++ ((demoIdent 2).drop 1).dropLast.map (CLabel.node 0) ++ List.replicate 3 (.saver .trigger) ++ saveOnce

/-- A fair execution that meets the hypotheses of all four theorems from moment 40 on. -/
example : ∃ e : Exec (cStep demoDB), FairCtl e ∧ CReach demoDB true [] (e.st 0) ∧ Life demoDB (e.st 0) ∧
    (∀ m l, e.lab m = some l → SensibleC l) ∧ (e.st 40).disc = .done ∧ (e.st 40).saver = .idle ∧ unsaved (e.st 40).hist = true ∧
    (∀ m, 40 ≤ m → updates (e.st m).hist = updates (e.st 40).hist) ∧ (e.st 40).list = [(2, 0)] ∧
    (∀ id ref i, (id, ref) ∈ (e.st 40).list → ((e.st 40).heap ref).ident i = .absent ∨ ((e.st 40).heap ref).ident i = .done) := by
  have hrun : (cRun demoDB (start true []) identifiedRun).map (fun s => cRestB s && s.crashed.isNone && updates s.hist == 4) =
      some true := by decide +kernel
  cases hr : cRun demoDB (start true []) identifiedRun with
  | none => rw [hr] at hrun; cases hrun
  | some s =>
    rw [hr] at hrun
    simp only [Option.map_some, Option.some.injEq, Bool.and_eq_true, Option.isNone_iff_eq_none, decide_eq_true_eq,
      beq_iff_eq] at hrun
    obtain ⟨⟨h1, h2⟩, h3⟩ := hrun
    have v : ∀ n (p : CSt → Bool), n ≤ identifiedRun.length →
        (cRun demoDB (start true []) (identifiedRun.take n)).map p = some true →
        p ((cexecOf demoDB _ identifiedRun s hr h2).st n) = true := by
      intro n p hn hp
      cases ht : cRun demoDB (start true []) (identifiedRun.take n) with
      | none => rw [ht] at hp; cases hp
      | some t => rw [ht] at hp; rw [cexecOf_mid hr h2 n hn ht]; simpa using hp
    have hreach : ∀ n, CReach demoDB true [] ((cexecOf demoDB _ identifiedRun s hr h2).st n) :=
      cexec_reach (by rw [cexecOf_start]; exact ⟨[], rfl⟩)
    have v40 := v 40 (fun s => decide (s.disc = .done) && decide (s.saver = .idle) && unsaved s.hist && updates s.hist == 4 &&
      decide (s.list = [(2, 0)]) && decide ((s.heap 0).nIdent = 1) && decide ((s.heap 0).ident 0 = .done) &&
      decide (s.nHeap = 1)) (by decide) (by decide +kernel)
    simp only [Bool.and_eq_true, decide_eq_true_eq, beq_iff_eq] at v40
    obtain ⟨⟨⟨⟨⟨⟨⟨a1, a2⟩, a3⟩, a4⟩, a5⟩, a6⟩, a7⟩, a8⟩ := v40
    refine ⟨cexecOf demoDB _ identifiedRun s hr h2, cquiet_fair hr h2 (cquiet_of_rest (cinv noFileGood ⟨_, hr⟩) h1),
      hreach 0, by rw [cexecOf_start]; exact .first true, ?_, a1, a2, a3, ?_, a5, ?_⟩
    · intro m l hl
      have hman : Decoded (.manufacturerSpecific demoMan) := ⟨0x72, 0x05, [0x00, 0x86, 0x00, 0x03, 0x00, 0x06], rfl⟩
      have hend : Decoded (.multiChannelEndpoints ⟨false, false, 2⟩) := ⟨0x60, 0x08, [0x00, 0x02], rfl⟩
      have hall : ∀ l ∈ identifiedRun, SensibleC l := by
        intro l hl
        simp [identifiedRun, discOne, d, demoIdent, saveOnce, go] at hl
        rcases hl with rfl | rfl | rfl | rfl | rfl | rfl | rfl | rfl | rfl | rfl | rfl | rfl | rfl | rfl | rfl | rfl <;>
          first | trivial | exact hman | exact hend | (show (2 : Nat) < 2 ^ 63; decide)
      simp only [cexecOf, Option.some.injEq] at hl
      cases hg : identifiedRun[m]? with
      | none => rw [hg] at hl; subst hl; trivial
      | some l' => rw [hg] at hl; subst hl; exact hall _ (List.mem_of_getElem? hg)
    · intro m hm
      rw [a4]
      by_cases hle : identifiedRun.length ≤ m
      · rw [cexecOf_end hr h2 m hle]; exact h3
      · have : m = 40 ∨ m = 41 ∨ m = 42 ∨ m = 43 ∨ m = 44 ∨ m = 45 ∨ m = 46 ∨ m = 47 ∨ m = 48 ∨ m = 49 ∨ m = 50 ∨ m = 51 := by
          have : identifiedRun.length = 52 := by decide
          omega
        rcases this with rfl | rfl | rfl | rfl | rfl | rfl | rfl | rfl | rfl | rfl | rfl | rfl
        all_goals simpa using v _ (fun s => decide (updates s.hist = 4)) (by decide) (by decide +kernel)
    · intro id ref i hl
      rw [a5] at hl
      simp only [List.mem_singleton, Prod.mk.injEq] at hl
      obtain ⟨-, rfl⟩ := hl
      by_cases hi : i = 0
      · subst hi; exact .inr a7
      · exact .inl (((cinv noFileGood (hreach 40)).safe 0 (by omega)).wake.fresh i (by omega))

end Verif.Props
