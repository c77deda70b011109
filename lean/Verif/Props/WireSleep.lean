import Verif.Props.WireFile

/-
C122 when nodes are still being identified, as those are that sleep: what was said on the wire is in the file all the same.
-/

set_option linter.unusedSimpArgs false
set_option linter.unusedVariables false
set_option maxHeartbeats 1000000

namespace Verif.Props

open Verif.Go Verif.Model Verif.Spec Verif.Spec.SaveEnd Verif.Lemmas Verif.Lemmas.NodeM Verif.Lemmas.Ctl

variable {db : DB} {ns : List Node}

/-! ### The states change only with an update -/

theorem node_states {x x' : NSt} {l : NLabel} (h : nodeStep db x l = some x') :
    x'.node.stateBool = x.node.stateBool ∧ x'.node.stateFloat = x.node.stateFloat ∨ nodePushes x < nodePushes x' := by
  have hp : ∀ h : List NEv, List.countP (fun e => decide (e = NEv.pushed)) h <
      List.countP (fun e => decide (e = NEv.pushed)) (.pushed :: h) := by intro h; simp
  node_step h
  all_goals first
    | exact .inl ⟨rfl, rfl⟩
    | exact .inr (hp _)

/-- What a step leaves as it was, for the states. -/
structure Calm (s s' : CSt) : Prop where
  list : s'.list = s.list
  bool : ∀ ref, (s'.heap ref).node.stateBool = (s.heap ref).node.stateBool
  float : ∀ ref, (s'.heap ref).node.stateFloat = (s.heap ref).node.stateFloat
  saver : s'.saver = s.saver
  unsaved : Verif.Spec.unsaved s'.hist = Verif.Spec.unsaved s.hist

theorem put_calm {s : CSt} {r : Nat} {n : NSt} (hj : n.node.stateBool = (s.heap r).node.stateBool ∧ n.node.stateFloat = (s.heap r).node.stateFloat)
    (hp : ¬ nodePushes (s.heap r) < nodePushes n) : Calm s (s.put r n) := by
  unfold CSt.put
  dsimp only
  rw [if_neg (fun h => hp h.1)]
  refine ⟨rfl, fun ref => ?_, fun ref => ?_, rfl, rfl⟩
  all_goals
    simp only [updN]
    split
    · subst_vars; first | exact hj.1 | exact hj.2
    · rfl

theorem calm_step {s s' : CSt} {l : CLabel} (hc : CInv s) (hd : s.disc = .done) (ha : s.saver ≠ .absent) (h : cStep db s l = some s')
    (hl : isSaver l = false) : unsaved s'.hist = true ∨ Calm s s' := by
  have hraw : DiscAt.raw s.disc = none := by rw [hd]; rfl
  have key : ∀ (r : Nat) (n : NSt) (nl : NLabel) (t : CSt), r < s.nHeap → t.heap = s.heap →
      nodeStep db (s.heap r) nl = some n → unsaved (t.put r n).hist = true ∨ Calm t (t.put r n) := by
    intro r n nl t hlt ht hn
    by_cases hp : nodePushes (s.heap r) < nodePushes n
    · refine .inl (put_unsaved_or ?_ (by rw [ht]; exact hp))
      have hx : (s.heap r).node.hasConn = true := (hc.conn r hlt).resolve_left (by rw [hraw]; simp)
      rw [(frame_step hn).hasConn, hx]; rfl
    · exact .inr (put_calm (by rw [ht]; exact (node_states hn).resolve_right hp) (by rw [ht]; exact hp))
  ctl_step h
  all_goals try (simp only [hd, reduceCtorEq] at *; done)
  all_goals first
    | exact .inr ⟨rfl, fun _ => rfl, fun _ => rfl, rfl, rfl⟩
    | (cases hl; done)
    | exact absurd (by assumption) ha
    | (refine (key _ _ _ { s with hist := .applied _ _ _ :: s.hist } (hc.dref _ _ (by rw [‹s.deliv _ = _›]; rfl)) rfl
         (by assumption)).imp id fun h => ⟨h.list, h.bool, h.float, h.saver, h.unsaved⟩)
    | exact key _ _ _ _ (by assumption) rfl (by assumption)

/-! ### A save that began late enough -/

/-- Both lists are as long and belong together entry by entry. -/
inductive Pairs {α β : Type} (R : α → β → Prop) : List α → List β → Prop
  | nil : Pairs R [] []
  | cons {a b l m} : R a b → Pairs R l m → Pairs R (a :: l) (b :: m)

theorem Pairs.imp {α β : Type} {R R' : α → β → Prop} (h : ∀ a b, R a b → R' a b) {l : List α} {m : List β} (hp : Pairs R l m) :
    Pairs R' l m := by
  induction hp with
  | nil => exact .nil
  | cons h1 _ ih => exact .cons (h _ _ h1) ih

theorem Pairs.snoc {α β : Type} {R : α → β → Prop} {l : List α} {m : List β} {a : α} {b : β} (hp : Pairs R l m) (h : R a b) :
    Pairs R (l ++ [a]) (m ++ [b]) := by
  induction hp with
  | nil => exact .cons h .nil
  | cons h1 _ ih => exact .cons h1 ih

/-- What the saver takes for the list's entry `a` can be saved and has the states of the node. -/
structure Taken (s : CSt) (a : Int × Nat) (v : Node) : Prop where
  own : v.id = a.1
  ok : Savable v
  bool : v.stateBool = (s.heap a.2).node.stateBool
  float : v.stateFloat = (s.heap a.2).node.stateFloat

/-- The save in progress has taken the nodes' states as they are. -/
def AccS (s : CSt) (x : FileAt) : Prop :=
  match s.saver with
  | .enc todo => x.keys = s.list.map Prod.fst ∧ ∃ pre post, s.list = pre ++ post ∧ post.map Prod.snd = todo ∧
      Pairs (Taken s) pre x.acc
  | .write => x.keys = s.list.map Prod.fst ∧ Pairs (Taken s) s.list x.acc
  | _ => True

/-- The file has the nodes' states as they are. -/
def InFile (s : CSt) (x : FileAt) : Prop :=
  ∃ acc, x.text = saveText ((s.list.map Prod.fst).zip acc) ∧ Pairs (Taken s) s.list acc

theorem taken_calm {s s' : CSt} (h : Calm s s') {l : List (Int × Nat)} {acc : List Node} (ht : Pairs (Taken s) l acc) :
    Pairs (Taken s') l acc :=
  Pairs.imp (fun a v h1 => ⟨h1.own, h1.ok, by rw [h.bool]; exact h1.bool, by rw [h.float]; exact h1.float⟩) ht

theorem infile_calm {s s' : CSt} {x : FileAt} (h : Calm s s') (hi : InFile s x) : InFile s' x := by
  obtain ⟨acc, h1, h2⟩ := hi
  exact ⟨acc, by rw [h.list]; exact h1, by rw [h.list]; exact taken_calm h h2⟩

theorem accS_calm {s s' : CSt} {x : FileAt} (h : Calm s s') (hi : AccS s x) : AccS s' x := by
  unfold AccS at hi ⊢
  rw [h.saver, h.list]
  cases hv : s.saver <;> rw [hv] at hi <;> simp only at hi ⊢
  · obtain ⟨h1, pre, post, h2, h3, h4⟩ := hi
    exact ⟨h1, pre, post, h2, h3, taken_calm h h4⟩
  · exact ⟨hi.1, taken_calm h hi.2⟩

/-- Something is still to be saved, or the save in progress will write the states, or they are in the file. -/
def DueS (s : CSt) (x : FileAt) : Prop := unsaved s.hist = true ∨ AccS s x ∧ (InFile s x ∨ SaverAt.busy s.saver = true)

theorem takes {s : CSt} (hk : ListOk s.nodes) {a : Int × Nat} (ha : a ∈ s.list) : Taken s a (s.heap a.2).node := by
  have hm : (a.1, (s.heap a.2).node) ∈ s.nodes := List.mem_map.2 ⟨a, ha, rfl⟩
  exact ⟨hk.own _ hm, hk.savable _ hm, rfl, rfl⟩

theorem taken_frame {s s' : CSt} (h : s'.heap = s.heap) {l : List (Int × Nat)} {acc : List Node} (ht : Pairs (Taken s) l acc) :
    Pairs (Taken s') l acc :=
  Pairs.imp (fun a v h1 => ⟨h1.own, h1.ok, by rw [h]; exact h1.bool, by rw [h]; exact h1.float⟩) ht

/-- What a step of the saver does: it takes what it needs, and a save that is written is in the file. -/
theorem saver_takes {s s' : CSt} {op : SaverOp} {x : FileAt} (hk : ListOk s.nodes) (hd : s.disc = .done) (hf : s.hasFile = true)
    (h : cStep db s (.saver op) = some s') (hi : unsaved s.hist = true ∨ AccS s x) :
    (unsaved s'.hist = true ∨ AccS s' (x.next s (some (.saver op)))) ∧
    (unsaved s.hist = false → unsaved s'.hist = false) ∧
    (unsaved s.hist = true → unsaved s'.hist = true ∨ SaverAt.busy s'.saver = true) ∧
    (AccS s x → InFile s x → InFile s' (x.next s (some (.saver op)))) ∧
    (AccS s x → SaverAt.busy s.saver = true → InFile s' (x.next s (some (.saver op))) ∨ SaverAt.busy s'.saver = true) := by
  obtain ⟨f1, f2, -, -, -, -⟩ := saver_frame h
  have keep : ∀ y : FileAt, y.text = x.text → InFile s x → InFile s' y := by
    intro y hy ⟨acc, h1, h2⟩
    exact ⟨acc, by rw [hy, f1]; exact h1, by rw [f1]; exact taken_frame f2 h2⟩
  unfold cStep at h
  split at h
  · cases h
  simp only at h
  unfold saverStep at h
  have hwr : s.disc.writes = false := by rw [hd]; rfl
  have hlk : s.disc.locks = false := by rw [hd]; rfl
  unfold AccS at hi ⊢
  unfold FileAt.next
  cases hv : s.saver with
  | absent => cases op <;> simp only [hv, reduceCtorEq] at h
  | cmpNodes todo =>
    cases op <;> cases todo <;> simp only [hv, reduceCtorEq] at h hi ⊢
    all_goals (injection h with h; subst h; exact ⟨.inr trivial, id, fun _ => .inr rfl, fun _ h => keep _ rfl h, fun _ _ => .inr rfl⟩)
  | enc todo =>
    cases op <;> cases todo <;> simp only [hv, reduceCtorEq] at h hi ⊢
    · injection h with h; subst h
      refine ⟨hi.imp id fun ⟨h1, pre, post, h2, h3, h4⟩ => ⟨h1, ?_⟩, id, fun h => .inl h, fun _ h => keep _ rfl h, fun _ _ => .inr rfl⟩
      have : post = [] := by simpa using h3
      subst this
      rw [List.append_nil] at h2
      exact taken_frame f2 (by rw [h2]; exact h4 : Pairs (Taken s) s.list x.acc)
    · next ref todo =>
      injection h with h; subst h
      refine ⟨hi.imp id fun ⟨h1, pre, post, h2, h3, h4⟩ => ⟨h1, ?_⟩, id, fun h => .inl h, fun _ h => keep _ rfl h, fun _ _ => .inr rfl⟩
      cases post with
      | nil => simp at h3
      | cons a post =>
        simp only [List.map_cons, List.cons.injEq] at h3
        obtain ⟨h3, h5⟩ := h3
        subst h3
        refine ⟨pre ++ [a], post, by simp [h2], h5, ?_⟩
        exact taken_frame f2 (h4.snoc (takes hk (a := a) (by rw [h2]; simp)))
  | write =>
    cases op <;> simp only [hv, reduceCtorEq] at h hi ⊢
    injection h with h; subst h
    have new : x.keys = s.list.map Prod.fst ∧ Pairs (Taken s) s.list x.acc →
        InFile { s with saver := .idle, hist := .saved :: s.hist } { x with text := saveText (x.keys.zip x.acc) } :=
      fun ⟨h1, h2⟩ => ⟨x.acc, by rw [h1], taken_frame f2 h2⟩
    exact ⟨.inr trivial, fun h => by simpa [unsaved] using h, fun h => .inl (by simpa [unsaved] using h), fun h _ => new h, fun h _ => .inl (new h)⟩
  | iter =>
    cases op <;> simp only [hv, hwr, reduceCtorEq, Bool.false_eq_true, false_and, if_false] at h hi ⊢
    injection h with h; subst h
    exact ⟨.inr ⟨rfl, [], s.list, rfl, rfl, .nil⟩, id, fun h => .inl h, fun _ h => keep _ rfl h, fun _ _ => .inr rfl⟩
  | idle =>
    cases op <;> simp only [hv, reduceCtorEq] at h hi ⊢
    split at h
    · injection h with h; subst h
      exact ⟨.inr trivial, fun h => by simpa [unsaved] using h, fun h => .inl (by simpa [unsaved] using h), fun _ h => keep _ rfl h,
        fun _ h => by cases h⟩
    · cases h
  | window t =>
    cases op <;> simp only [hv, hf, if_true, reduceCtorEq] at h hi ⊢
    all_goals (split at h <;> first | (cases h; done) | skip)
    · injection h with h; subst h
      exact ⟨.inr trivial, fun h => by simpa [unsaved] using h, fun h => .inl (by simpa [unsaved] using h), fun _ h => keep _ rfl h,
        fun _ h => by cases h⟩
    · injection h with h; subst h
      exact ⟨.inr trivial, fun _ => rfl, fun h => .inr rfl, fun _ h => keep _ rfl h, fun _ h => by cases h⟩
  | cmp =>
    cases op <;> simp only [hv, hwr, reduceCtorEq, Bool.false_eq_true, false_and, if_false] at h hi ⊢
    all_goals (injection h with h; subst h; exact ⟨.inr trivial, id, fun h => .inr rfl, fun _ h => keep _ rfl h, fun _ _ => .inr rfl⟩)
  | copy =>
    cases op <;> simp only [hv, hlk, reduceCtorEq, Bool.false_eq_true, if_false] at h hi ⊢
    injection h with h; subst h
    exact ⟨.inr trivial, id, fun h => .inr rfl, fun _ h => keep _ rfl h, fun _ _ => .inr rfl⟩
  | stuck => cases op <;> simp only [hv, reduceCtorEq] at h

theorem dueS_step {s s' : CSt} {l : CLabel} {x : FileAt} (hc : CInv s) (hk : ListOk s.nodes) (hd : s.disc = .done) (hf : s.hasFile = true)
    (ha : s.saver ≠ .absent) (h : cStep db s l = some s') (hi : DueS s x) : DueS s' (x.next s (some l)) := by
  by_cases hl : isSaver l = true
  · cases l <;> first | cases hl | skip
    next op =>
    obtain ⟨g1, g2, g3, g4, g5⟩ := saver_takes hk hd hf h (hi.imp id And.left)
    rcases hi with hi | ⟨h1, h2⟩
    · rcases g1 with g1 | g1
      · exact .inl g1
      · exact (g3 hi).imp id fun g3 => ⟨g1, .inr g3⟩
    · rcases g1 with g1 | g1
      · exact .inl g1
      · exact .inr ⟨g1, h2.elim (fun h2 => .inl (g4 h1 h2)) (g5 h1)⟩
  · have hl' : isSaver l = false := by simpa using hl
    rw [next_other hl']
    rcases calm_step hc hd ha h hl' with h1 | h1
    · exact .inl h1
    · rcases hi with hi | ⟨h2, h3⟩
      · exact .inl (by rw [h1.unsaved]; exact hi)
      · exact .inr ⟨accS_calm h1 h2, by rw [h1.saver]; exact h3.imp (infile_calm h1) id⟩

/-! ### In the end -/

variable {e : Exec (cStep db)}

theorem life_exec (h0 : Life db (e.st 0)) (hl : ∀ m l, e.lab m = some l → SensibleC l) (k : Nat) : Life db (e.st k) := by
  induction k with
  | zero => exact h0
  | succ k ih =>
    have := e.next k
    cases hk : e.lab k with
    | none => rw [hk] at this; simp only at this; rw [this]; exact ih
    | some l => rw [hk] at this; exact .step ih (hl k l hk) this

/-- C122: after the discovery, when there was an update and no more come, the file has in the end the states of all nodes as they are,
and goes on having them, also if nodes are being identified. -/
theorem C122_states_in_file_partial (hf : FairCtl e) (hg : GoodFile ns) (h0 : e.st 0 = start true ns) (x : FileAt) (n : Nat)
    (hlife : Life db (e.st 0)) (hsen : ∀ m l, e.lab m = some l → SensibleC l)
    (hd : (e.st n).disc = .done) (ha : (e.st n).saver ≠ .absent) (hs : (e.st n).saver ≠ .stuck)
    (hp : ∃ m, n ≤ m ∧ unsaved (e.st m).hist = true)
    (hu : ∃ m, n ≤ m ∧ ∀ k, m ≤ k → updates (e.st k).hist = updates (e.st m).hist) :
    ∃ m, n ≤ m ∧ ((e.st m).crashed ≠ none ∨ ∀ k, m ≤ k → InFile (e.st k) (fileAt e x k)) := by
  have hr : CReach db true ns (e.st 0) := by rw [h0]; exact ⟨[], rfl⟩
  have reach := cexec_reach hr
  have hc := fun m => cinv hg (reach m)
  have life := life_exec hlife hsen
  have stay : ∀ m, n ≤ m → (e.st m).disc = .done ∧ (e.st m).saver ≠ .absent ∧ (e.st m).saver ≠ .stuck := by
    refine exec_keep e (Q := fun s => s.disc = .done ∧ s.saver ≠ .absent ∧ s.saver ≠ .stuck) (fun s l s' h hst => ?_) ⟨hd, ha, hs⟩
    obtain ⟨-, g2, g3, g4, g5, -⟩ := Verif.Lemmas.Ctl.left_step h.1 h.2.1 hst
    exact ⟨g2, g3, g5 h.2.2⟩
  obtain ⟨n1, hn1, hp⟩ := hp
  obtain ⟨n2, hn2, hu⟩ := hu
  have due : ∀ m, n1 ≤ m → DueS (e.st m) (fileAt e x m) := by
    intro m hm
    induction hm with
    | refl => exact .inl hp
    | step hm ih =>
      next m =>
      have := e.next m
      cases hl : e.lab m with
      | none =>
        rw [hl] at this
        simp only at this
        simp only [fileAt, hl, this]
        exact ih
      | some l =>
        rw [hl] at this
        simp only [fileAt, hl]
        obtain ⟨s1, s2, s3⟩ := stay m (Nat.le_trans hn1 hm)
        exact dueS_step (hc m) (Verif.Lemmas.Persist.life_ok (life m)) s1 (saveInv (reach m)).file s2 this ih
  obtain ⟨t1, t2, t3⟩ := stay (n1 + n2) (by omega)
  obtain ⟨m, hm, h⟩ := C97_saved_partial hf hr (n1 + n2) t1 t2 t3 (fun k hk => (hu k (by omega)).trans (hu (n1 + n2) (by omega)).symm)
  refine ⟨m, by omega, h.imp id fun h => ?_⟩
  have all : ∀ k, m ≤ k → unsaved (e.st k).hist = false ∧ InFile (e.st k) (fileAt e x k) := by
    intro k hk
    induction hk with
    | refl =>
      refine ⟨h.1, ?_⟩
      rcases due m (by omega) with h1 | h1
      · rw [h.1] at h1; cases h1
      · refine h1.2.resolve_right ?_
        rw [← (saveInv (reach m)).busy, h.2]; simp
    | step hk ih =>
      next k =>
      have hst := e.next k
      cases hl : e.lab k with
      | none =>
        rw [hl] at hst
        simp only at hst
        simp only [fileAt, hl, hst]
        exact ih
      | some l =>
        rw [hl] at hst
        have hk' : m ≤ k := hk
        obtain ⟨s1, s2, s3⟩ := stay k (by omega)
        have hus : unsaved (e.st (k + 1)).hist = false :=
          unsaved_stays s2 hst ((hu (k + 1) (by omega)).trans (hu k (by omega)).symm) ih.1
        refine ⟨hus, ?_⟩
        simp only [fileAt, hl]
        have hacc : AccS (e.st k) (fileAt e x k) := by
          rcases due k (by omega) with h1 | h1
          · rw [ih.1] at h1; cases h1
          · exact h1.1
        by_cases hl' : isSaver l = true
        · cases l <;> first | cases hl' | skip
          exact (saver_takes (Verif.Lemmas.Persist.life_ok (life k)) s1 (saveInv (reach k)).file hst (.inr hacc)).2.2.2.1 hacc ih.2
        · have hl2 : isSaver l = false := by simpa using hl'
          rw [next_other hl2]
          rcases calm_step (hc k) s1 s2 hst hl2 with h1 | h1
          · rw [hus] at h1; cases h1
          · exact infile_calm h1 ih.2
  exact fun k hk => (all k hk).2

theorem pairs_ok {s : CSt} {L : List (Int × Nat)} {acc : List Node} (h : Pairs (Taken s) L acc) (hn : (L.map Prod.fst).Nodup) :
    ListOk ((L.map Prod.fst).zip acc) ∧ ∀ a ∈ L, ∃ v, GoMap.get ((L.map Prod.fst).zip acc) a.1 = some v ∧ Taken s a v := by
  have hfst : ∀ {L : List (Int × Nat)} {acc : List Node}, Pairs (Taken s) L acc → ((L.map Prod.fst).zip acc).map Prod.fst = L.map Prod.fst := by
    intro L acc h
    induction h with
    | nil => rfl
    | cons _ _ ih => simp only [List.map_cons, List.zip_cons_cons, ih]
  refine ⟨⟨by rw [hfst h]; exact hn, ?_, ?_⟩, ?_⟩
  · clear hn
    induction h with
    | nil => intro e he; cases he
    | cons h1 _ ih =>
      intro e he
      simp only [List.map_cons, List.zip_cons_cons, List.mem_cons] at he
      rcases he with rfl | he
      · exact h1.own
      · exact ih e he
  · clear hn
    induction h with
    | nil => intro e he; cases he
    | cons h1 _ ih =>
      intro e he
      simp only [List.map_cons, List.zip_cons_cons, List.mem_cons] at he
      rcases he with rfl | he
      · exact h1.ok
      · exact ih e he
  · induction h with
    | nil => intro a ha; cases ha
    | cons h1 _ ih =>
      next a v L acc h2 =>
      simp only [List.map_cons, List.nodup_cons] at hn
      intro b hb
      simp only [List.mem_cons] at hb
      rcases hb with rfl | hb
      · exact ⟨v, by simp [GoMap.get], h1⟩
      · obtain ⟨w, h3, h4⟩ := ih hn.2 b hb
        refine ⟨w, ?_, h4⟩
        have hne : a.1 ≠ b.1 := fun he => hn.1 (he ▸ List.mem_map.2 ⟨b, hb, rfl⟩)
        simpa [GoMap.get, hne] using h3

/-- `P` depends on the states only. -/
def OnStates (P : Node → Prop) : Prop :=
  ∀ v v', (∀ k, boolState v' k = boolState v k) → (∀ k, floatState v' k = floatState v k) → P v → P v'

/-- What a node shows at a moment when its states are in the file, it shows again after a restart. -/
theorem infile_shows {s : CSt} {x : FileAt} (hk : ListOk s.nodes) (h : InFile s x) {id : Int} {ref : Nat} (hi : s.list.get id = some ref)
    {P : Node → Prop} (hP : OnStates P) (hv : P (s.heap ref).node) (o o' : Order) (f : Bool) :
    ∃ c, loadConfig o o' (some x.text) (newController f) = .ret false c ∧ ∃ v, c.nodes.get id = some v ∧ P v := by
  obtain ⟨acc, h1, h2⟩ := h
  have hn : (s.list.map Prod.fst).Nodup := by
    have := hk.nodup
    simpa [CSt.nodes, Function.comp_def] using this
  obtain ⟨g1, g2⟩ := pairs_ok h2 hn
  obtain ⟨v, g3, g4⟩ := g2 (id, ref) (Verif.Lemmas.Persist.get_mem hi)
  rw [h1]
  obtain ⟨c, c1, c2, -⟩ := C48_any_list _ g1 o o' f
  obtain ⟨v', c3, c4⟩ := c2 id v g3
  refine ⟨c, c1, v', c3, hP _ _ (fun k => ?_) (fun k => ?_) hv⟩
  · rw [restored_bool c4, boolState, boolState, g4.bool]
  · rw [restored_float c4, floatState, floatState, g4.float]

/-! ### From the wire -/

open Verif.Model.Conn Verif.Lemmas.Conn Verif.Lemmas.EndToEnd Verif.Lemmas.System

variable {lv : LoopVars} {e : Exec (sysStep lv db)}

/-- What a listed node shows in the end, it shows again after a restart. -/
theorem states_again (hf : FairSys e) (hg : GoodFile ns) (h0 : e.st 0 = sysStart true ns) (x : FileAt) {n0 n : Nat}
    (hd : (e.st n0).ctl.disc = .done) {b : UInt8} {ref : Nat} (hl : (e.st n0).ctl.list.get b.toNat = some ref)
    (hb : AllApplied b (e.st n0).ctl) (hq : NoMoreRequests e n) (hr : NoMoreReads e n) {xs : List Session}
    (hx : sessions (connSteps e n) = xs.map Session.reads) (ho : ∀ x ∈ xs, x.Ok)
    (ha : (e.st n0).ctl.saver ≠ .absent) (hs : (e.st n0).ctl.saver ≠ .stuck)
    (hu : ∃ m, n0 ≤ m ∧ unsaved (e.st m).ctl.hist = true)
    (hlife : Life db (start true ns)) (hsen : ∀ m l, e.lab m = some (.ctl l) → SensibleC l)
    {P : Node → Prop} (hP : OnStates P) (h : ∃ m, ∀ m', m ≤ m' → Sys.dead (e.st m') ∨ P ((e.st m').ctl.heap ref).node) :
    ∃ m, ∀ m', m ≤ m' → Sys.dead (e.st m') ∨ ShownAgain e x m' b.toNat P := by
  by_cases hdead : ∃ m, Sys.dead (e.st m)
  · obtain ⟨m, hm⟩ := hdead
    exact ⟨m, fun m' h => .inl (dead_stays h hm)⟩
  have hal : ∀ m, ¬ Sys.dead (e.st m) := fun m h => hdead ⟨m, h⟩
  obtain ⟨k, hk⟩ := C100_all_applied hf hg h0 hd hl hb hq hr hx ho
  have hall := steps_sensible (fun m hm => ((hk m hm).resolve_left (hal m)).1) hsen
  have hs0 : (ctlExec e).st 0 = start true ns := by show (e.st 0).ctl = _; rw [h0]; rfl
  have hre : CReach db true ns ((ctlExec e).st 0) := by rw [hs0]; exact ⟨[], rfl⟩
  have hl0 : Life db ((ctlExec e).st 0) := by rw [hs0]; exact hlife
  obtain ⟨m, h1, h2, h3⟩ := C122_updates_stop (e := ctlExec e) hg hre (n := n0) hd ha (k := k)
    (silent_after (fun m hm => ((hk m hm).resolve_left (hal m)).1.rest))
  obtain ⟨m1, h4, h5⟩ := C122_states_in_file_partial (ctl_fair hal hf) hg hs0 x n0 hl0 hall hd ha hs hu ⟨m, h1, h3⟩
  obtain ⟨m2, h6⟩ := h
  refine ⟨n0 + m1 + m2, fun m hm => ?_⟩
  refine (h6 m (by omega)).imp id fun h6 o o' f => ?_
  exact infile_shows (Verif.Lemmas.Persist.life_ok (life_exec hl0 hall m))
    (h5.resolve_left (fun h => hal m1 (.inr h)) m (by omega))
    (show (e.st m).ctl.list.get b.toNat = some ref by rw [list_stays_sys hd m (by omega)]; exact hl) hP h6 o o' f

/-- C122: the wire has fallen silent, an update is not saved yet or comes later, and the frames of a listed node that say whether it is
on agree: then in the end every restart finds that in the file, whatever nodes are being identified or sleep. -/
theorem C122_on_while_identifying_partial (hf : FairSys e) (hg : GoodFile ns) (h0 : e.st 0 = sysStart true ns) (x : FileAt) {n0 n : Nat}
    (hd : (e.st n0).ctl.disc = .done) {b : UInt8} {ref : Nat} (hl : (e.st n0).ctl.list.get b.toNat = some ref)
    (hb : AllApplied b (e.st n0).ctl) (hq : NoMoreRequests e n) (hr : NoMoreReads e n) {xs : List Session}
    (hx : sessions (connSteps e n) = xs.map Session.reads) (ho : ∀ x ∈ xs, x.Ok)
    (ha : (e.st n0).ctl.saver ≠ .absent) (hs : (e.st n0).ctl.saver ≠ .stuck)
    (hu : ∃ m, n0 ≤ m ∧ unsaved (e.st m).ctl.hist = true)
    (hlife : Life db (start true ns)) (hsen : ∀ m l, e.lab m = some (.ctl l) → SensibleC l)
    {y : Bool} (hsome : ∃ fr ∈ onWire xs, WireOn fr b y) (hagree : ∀ fr ∈ onWire xs, ∀ z, WireOn fr b z → z = y) :
    ∃ m, ∀ m', m ≤ m' → Sys.dead (e.st m') ∨ ShownAgain e x m' b.toNat fun v => boolState v "on".toList = some y :=
  states_again hf hg h0 x hd hl hb hq hr hx ho ha hs hu hlife hsen (fun v v' h1 h2 hv => by rw [h1]; exact hv)
    (C100_on_shown hf hg h0 hd hl hb hq hr hx ho hsome hagree)

/-- C122: likewise for the level. -/
theorem C122_level_while_identifying_partial (hf : FairSys e) (hg : GoodFile ns) (h0 : e.st 0 = sysStart true ns) (x : FileAt) {n0 n : Nat}
    (hd : (e.st n0).ctl.disc = .done) {b : UInt8} {ref : Nat} (hl : (e.st n0).ctl.list.get b.toNat = some ref)
    (hb : AllApplied b (e.st n0).ctl) (hq : NoMoreRequests e n) (hr : NoMoreReads e n) {xs : List Session}
    (hx : sessions (connSteps e n) = xs.map Session.reads) (ho : ∀ x ∈ xs, x.Ok)
    (ha : (e.st n0).ctl.saver ≠ .absent) (hs : (e.st n0).ctl.saver ≠ .stuck)
    (hu : ∃ m, n0 ≤ m ∧ unsaved (e.st m).ctl.hist = true)
    (hlife : Life db (start true ns)) (hsen : ∀ m l, e.lab m = some (.ctl l) → SensibleC l)
    {y : Nat} (hsome : ∃ fr ∈ onWire xs, WireLevel fr b y) (hagree : ∀ fr ∈ onWire xs, ∀ z, WireLevel fr b z → z = y) :
    ∃ m, ∀ m', m ≤ m' → Sys.dead (e.st m') ∨ ShownAgain e x m' b.toNat fun v => floatState v "level".toList = some (y : Rat) :=
  states_again hf hg h0 x hd hl hb hq hr hx ho ha hs hu hlife hsen (fun v v' h1 h2 hv => by rw [h2]; exact hv)
    (C100_level_shown hf hg h0 hd hl hb hq hr hx ho hsome hagree)

/-- C122: and for every other state but those of an alarm, in terms of the reports the frames carry. -/
theorem C122_state_while_identifying_partial (hf : FairSys e) (hg : GoodFile ns) (h0 : e.st 0 = sysStart true ns) (x : FileAt) {n0 n : Nat}
    (hd : (e.st n0).ctl.disc = .done) {b : UInt8} {ref : Nat} (hl : (e.st n0).ctl.list.get b.toNat = some ref)
    (hb : AllApplied b (e.st n0).ctl) (hq : NoMoreRequests e n) (hr : NoMoreReads e n) {xs : List Session}
    (hx : sessions (connSteps e n) = xs.map Session.reads) (ho : ∀ x ∈ xs, x.Ok)
    (ha : (e.st n0).ctl.saver ≠ .absent) (hs : (e.st n0).ctl.saver ≠ .stuck)
    (hu : ∃ m, n0 ≤ m ∧ unsaved (e.st m).ctl.hist = true)
    (hlife : Life db (start true ns)) (hsen : ∀ m l, e.lab m = some (.ctl l) → SensibleC l)
    {key : List Char} (hk : key ≠ "alarm".toList) (hk' : key ≠ "alarmLastType".toList) {y : Rat}
    (hsome : ∃ fr ∈ onWire xs, ∃ r, IsReport fr b r ∧ saysFloat r key = some y)
    (hagree : ∀ fr ∈ onWire xs, ∀ r, IsReport fr b r → saysFloat r key = some y ∨ saysFloat r key = none) :
    ∃ m, ∀ m', m ≤ m' → Sys.dead (e.st m') ∨ ShownAgain e x m' b.toNat fun v => floatState v key = some y :=
  states_again hf hg h0 x hd hl hb hq hr hx ho ha hs hu hlife hsen (fun v v' h1 h2 hv => by rw [h2]; exact hv)
    (C100_state_shown hf hg h0 hd hl hb hq hr hx ho hk hk' hsome hagree)

/-- C122: an alarm does not come back with a restart. -/
theorem C122_no_alarm_while_identifying_partial (hf : FairSys e) (hg : GoodFile ns) (h0 : e.st 0 = sysStart true ns) (x : FileAt) {n0 n : Nat}
    (hd : (e.st n0).ctl.disc = .done) {b : UInt8} {ref : Nat} (hl : (e.st n0).ctl.list.get b.toNat = some ref)
    (hb : AllApplied b (e.st n0).ctl) (hq : NoMoreRequests e n) (hr : NoMoreReads e n) {xs : List Session}
    (hx : sessions (connSteps e n) = xs.map Session.reads) (ho : ∀ x ∈ xs, x.Ok)
    (ha : (e.st n0).ctl.saver ≠ .absent) (hs : (e.st n0).ctl.saver ≠ .stuck)
    (hu : ∃ m, n0 ≤ m ∧ unsaved (e.st m).ctl.hist = true)
    (hlife : Life db (start true ns)) (hsen : ∀ m l, e.lab m = some (.ctl l) → SensibleC l)
    (hfile : ∀ x ∈ ns, boolState x "alarm".toList ≠ some true) :
    ∃ m, ∀ m', m ≤ m' → Sys.dead (e.st m') ∨ ShownAgain e x m' b.toNat fun v => boolState v "alarm".toList ≠ some true :=
  states_again hf hg h0 x hd hl hb hq hr hx ho ha hs hu hlife hsen (fun v v' h1 h2 hv => by rw [h1]; exact hv)
    (C113_alarm_over_partial hf hg h0 hfile hd hl hb hq hr hx ho)

/-- C122: but its type is remembered. -/
theorem C122_last_type_while_identifying_partial (hf : FairSys e) (hg : GoodFile ns) (h0 : e.st 0 = sysStart true ns) (x : FileAt) {n0 n : Nat}
    (hd : (e.st n0).ctl.disc = .done) {b : UInt8} {ref : Nat} (hl : (e.st n0).ctl.list.get b.toNat = some ref)
    (hb : AllApplied b (e.st n0).ctl) (hq : NoMoreRequests e n) (hr : NoMoreReads e n) {xs : List Session}
    (hx : sessions (connSteps e n) = xs.map Session.reads) (ho : ∀ x ∈ xs, x.Ok)
    (ha : (e.st n0).ctl.saver ≠ .absent) (hs : (e.st n0).ctl.saver ≠ .stuck)
    (hu : ∃ m, n0 ≤ m ∧ unsaved (e.st m).ctl.hist = true)
    (hlife : Life db (start true ns)) (hsen : ∀ m l, e.lab m = some (.ctl l) → SensibleC l)
    {t : UInt8} (hsome : ∃ fr ∈ onWire xs, WireAlarm fr b t) (hagree : ∀ fr ∈ onWire xs, ∀ t', WireAlarm fr b t' → t' = t) :
    ∃ m, ∀ m', m ≤ m' → Sys.dead (e.st m') ∨ ShownAgain e x m' b.toNat fun v => floatState v "alarmLastType".toList = some (t.toNat : Rat) :=
  states_again hf hg h0 x hd hl hb hq hr hx ho ha hs hu hlife hsen (fun v v' h1 h2 hv => by rw [h2]; exact hv)
    (C113_last_type_shown hf hg h0 hd hl hb hq hr hx ho hsome hagree)

/-! ### An instance -/

/-- The port is opened, node 2 is found and its protocol info is read and saved; it sleeps, so that its identification goes on for ever.
It says once that it is on, and that is saved. -/
def exAsleepSys : List SLabel :=
  [.conn (.connect true), .connected true] ++ asleepRun.map .ctl ++ [.conn (.reader (.read ⟨exReport, true, 5⟩))] ++
    exWork.map .conn ++ [.ctl (.deliver 0), .ctl (.deliver 0), .ctl (.deliver 0)] ++ saveOnce.map .ctl

theorem asleep_sensible : ∀ l ∈ asleepRun, SensibleC l := by
  intro l hl
  simp [asleepRun, discOne, d, saveOnce, goOn] at hl
  rcases hl with rfl | rfl | rfl | rfl | rfl | rfl | rfl | rfl | rfl | rfl | rfl | rfl <;>
    first | trivial | (show (2 : Nat) < 2 ^ 63; decide)

theorem asleepSys_sensible : ∀ l, SLabel.ctl l ∈ exAsleepSys → SensibleC l := by
  intro l hl
  simp only [exAsleepSys, List.mem_append, List.mem_cons, List.mem_map, SLabel.ctl.injEq, reduceCtorEq, List.not_mem_nil,
    and_false, exists_false, or_false, false_or, exists_eq_right, saveOnce] at hl
  rcases hl with ((h | rfl | rfl | rfl) | h)
  · exact asleep_sensible l h
  all_goals try trivial
  rcases h with rfl | rfl | rfl | rfl | rfl | rfl | rfl | rfl | rfl <;> trivial

/-- A fair execution that meets the hypotheses: at moment 31 the identification waits for node 2 to wake up, which it never does; at moment 32 the
frame has been read but not even cut out of the buffer; nothing more is read or requested. -/
example : ∃ e : Exec (sysStep .perIteration demoDB), FairSys e ∧ e.st 0 = sysStart true [] ∧ Life demoDB (start true []) ∧
    (∀ m l, e.lab m = some (.ctl l) → SensibleC l) ∧
    (e.st 31).ctl.disc = .done ∧ (e.st 31).ctl.list.get (2 : UInt8).toNat = some 0 ∧ AllApplied 2 (e.st 31).ctl ∧
    (e.st 31).ctl.saver = .idle ∧ unsaved (e.st 44).ctl.hist = true ∧
    (∀ m, exAsleepSys.length ≤ m → ((e.st m).ctl.heap 0).ident 0 = .awWait .manufacturer (some 0)) ∧
    NoMoreRequests e 32 ∧ NoMoreReads e 32 ∧ boolState ((e.st 32).ctl.heap 0).node "on".toList = none ∧
    sessions (connSteps e 32) = [exSysSession, []].map Session.reads ∧ (∀ x ∈ [exSysSession, []], x.Ok) ∧
    (∃ fr ∈ onWire [exSysSession, []], WireOn fr 2 true) ∧ (∀ n, ¬ Sys.dead (e.st n)) := by
  have hv : (runSteps (sysStep .perIteration demoDB) (sysStart true []) exAsleepSys).map (fun s =>
      restB s.conn && cRestB s.ctl && s.conn.crashed.isNone && s.ctl.crashed.isNone &&
      decide ((s.ctl.heap 0).ident 0 = .awWait .manufacturer (some 0))) = some true := by decide +kernel
  cases hr : runSteps (sysStep .perIteration demoDB) (sysStart true []) exAsleepSys with
  | none => rw [hr] at hv; cases hv
  | some s =>
    have hr0 : runSteps (sysStep .perIteration demoDB) (sysStart true []) exAsleepSys = some (sysTail s 0) := hr
    rw [hr] at hv
    simp only [Option.map_some, Option.some.injEq, Bool.and_eq_true, Option.isNone_iff_eq_none, decide_eq_true_eq] at hv
    obtain ⟨⟨⟨⟨v1, v2⟩, v3⟩, v4⟩, v5⟩ := hv
    let e0 := execFin (sysStep .perIteration demoDB) (sysStart true []) exAsleepSys s hr none (by simp)
    have hst : e0.st exAsleepSys.length = s := execFin_end _ _ (Nat.le_refl _)
    have hp := sys_parts (e := e0) (f := true) (ns := []) (by simp [e0, execFin, runSteps]) exAsleepSys.length
    rw [hst] at hp
    let e := execTail (sysStep .perIteration demoDB) (sysStart true []) exAsleepSys (sysTail s) (.ctl (.tick 1)) hr0 (sysTail_step v3 v4)
    have v : ∀ n (p : Sys → Bool), n < exAsleepSys.length →
        (runSteps (sysStep .perIteration demoDB) (sysStart true []) (exAsleepSys.take n)).map p = some true → p (e.st n) = true := by
      intro n p hn hp
      cases hr : runSteps (sysStep .perIteration demoDB) (sysStart true []) (exAsleepSys.take n) with
      | none => rw [hr] at hp; cases hp
      | some t => rw [hr] at hp; rw [show e.st n = t from execTail_mid hr0 _ hn hr]; simpa using hp
    have hlab : ∀ m, 32 ≤ m → ∃ l, e.lab m = some l ∧ inert l = true := by
      intro m hm
      refine ⟨_, rfl, ?_⟩
      by_cases hlt : m < exAsleepSys.length
      · have hall : ((exAsleepSys.drop 32).all inert) = true := by decide +kernel
        rw [List.all_eq_true] at hall
        rw [if_pos hlt, List.getElem?_eq_getElem hlt, Option.getD_some]
        refine hall _ (List.mem_of_getElem? (i := m - 32) ?_)
        rw [List.getElem?_drop, show 32 + (m - 32) = m by omega, List.getElem?_eq_getElem hlt]
      · rw [if_neg hlt]; rfl
    have hdeadB : ∀ n, ¬ Sys.dead (e.st n) := by
      intro n hd
      have h1 := dead_stays (e := e) (n := n) (m := n + exAsleepSys.length) (by omega) hd
      rw [show e.st (n + exAsleepSys.length) = _ from execTail_end hr0 _ (by omega)] at h1
      rcases h1 with h1 | h1
      · exact h1 v3
      · exact h1 v4
    have h00 : e.st 0 = sysStart true [] := execTail_mid hr0 _ (by decide) rfl
    have a5 : (e.st 31).ctl.list = [(2, 0)] := by
      simpa using v 31 (fun s => decide (s.ctl.list = [(2, 0)])) (by decide) (by decide +kernel)
    refine ⟨e, sys_fair hr0 v3 v4 (quiet_of_restB ⟨_, hp.1⟩ v1) (cquiet_of_rest (cinv noFileGood hp.2) v2), h00, .first true, ?_, ?_, ?_,
      ?_, ?_, ?_, ?_, ?_, ?_, ?_, ?_, exSysSession_ok, ⟨exReport, by decide, ?_⟩, hdeadB⟩
    · intro m l hl
      have hl : some (if m < exAsleepSys.length then exAsleepSys[m]?.getD (.ctl (.tick 1)) else .ctl (.tick 1)) = some (SLabel.ctl l) := hl
      by_cases hlt : m < exAsleepSys.length
      · rw [if_pos hlt, List.getElem?_eq_getElem hlt, Option.getD_some] at hl
        injection hl with hl
        exact asleepSys_sensible l (hl ▸ List.getElem_mem hlt)
      · rw [if_neg hlt] at hl
        cases hl
        trivial
    · simpa using v 31 (fun s => decide (s.ctl.disc = .done)) (by decide) (by decide +kernel)
    · rw [a5]; rfl
    · intro k r hk
      have h1 : arrivals (e.st 31).ctl.hist = [] := by
        simpa using v 31 (fun s => decide (arrivals s.ctl.hist = [])) (by decide) (by decide +kernel)
      have := mem_arrivals.2 ⟨k, arrivalOf_mem hk⟩
      rw [h1] at this; cases this
    · simpa using v 31 (fun s => decide (s.ctl.saver = .idle)) (by decide) (by decide +kernel)
    · simpa using v 44 (fun s => unsaved s.ctl.hist) (by decide) (by decide +kernel)
    · intro m hm
      rw [show e.st m = _ from execTail_end hr0 _ hm]
      exact v5
    · intro m hm w src hc
      obtain ⟨l, h1, h2⟩ := hlab m hm
      rw [h1] at hc; cases hc; cases h2
    · intro m hm
      obtain ⟨l, h1, h2⟩ := hlab m hm
      constructor
      · intro r hc; rw [h1] at hc; cases hc; cases h2
      · intro hc; rw [h1] at hc; cases hc; cases h2
    · simpa using v 32 (fun s => decide (boolState (s.ctl.heap 0).node "on".toList = none)) (by decide) (by decide +kernel)
    · rfl
    · exact .inl ⟨0xFF, ⟨0x00, 0x00, 0x03, [], ⟨0x09, 0x2A, rfl, rfl, by decide⟩, rfl, by decide⟩, rfl⟩

end Verif.Props
