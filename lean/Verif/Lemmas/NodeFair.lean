import Verif.Lemmas.NodeTerm
import Verif.Lemmas.Fair
import Verif.Spec.NodeFair

/-
Identification in fair executions.
-/

set_option linter.unusedSimpArgs false
set_option linter.unusedVariables false
set_option maxHeartbeats 4000000

namespace Verif.Lemmas.NodeM

open Verif.Go Verif.Model Verif.Spec

/-! ### Waiting on a channel -/

/-- The channel waited on is the one that the next wake-up closes. -/
structure WaitInv (s : NSt) : Prop where
  one : s.nIdent ≤ 1
  mak : ∀ i p, s.ident i = .awMake p → s.awake = none
  wn : ∀ j c, s.proc j = .wakeNil → s.awake = some c → s.closed c = true
  hw : ∀ j, s.proc j = .wakeNil → s.awake ≠ none
  wt : ∀ i p c, s.ident i = .awWait p (some c) → s.closed c = false → s.awake = some c

theorem wait_start (n : Node) : WaitInv (NSt.start n) := by
  constructor <;> simp [NSt.start]

theorem wait_step {db : DB} {s s' : NSt} {l : NLabel} (hw : WakeInv s) (hi : WaitInv s)
    (h : nodeStep db s l = some s') (h1 : s'.nIdent ≤ 1) : WaitInv s' := by
  obtain ⟨k1, k2, k3, k4, k5⟩ := hi
  have f := hw.fresh
  have f2 := hw.freshP
  have w2 := hw.own1
  have w3 := hw.own2
  have w4 := hw.closing
  clear hw
  node_step h
  all_goals constructor
  all_goals first
    | assumption
    | (simp only [] at h1; grind [updN])

/-- Goroutines that were started have a position. -/
theorem present_step {db : DB} {s s' : NSt} {l : NLabel} (hi : ∀ i, i < s.nIdent → s.ident i ≠ .absent)
    (h : nodeStep db s l = some s') : ∀ i, i < s'.nIdent → s'.ident i ≠ .absent := by
  node_step h
  all_goals first
    | assumption
    | grind [updN]

/-- Everything known about a node with one identification. -/
structure NodeInv (M D : Nat) (s : NSt) : Prop where
  wake : WakeInv s
  idi : IdInv s
  usable : Usable s.node
  alive : s.crashed = none
  len : LenInv M D s
  wait : WaitInv s
  pres : ∀ i, i < s.nIdent → s.ident i ≠ .absent

theorem nodeInv_start {n : Node} (hn : FreshOk n) (hu : Usable n) (M D : Nat) : NodeInv M D (NSt.start n) := by
  refine ⟨wakeInv_start n, idInv_start hn, hu, rfl, ?_, wait_start n, ?_⟩
  · constructor <;> simp [NSt.start, classed, early, lacks]
  · intro i hi; simp [NSt.start] at hi

theorem nodeInv_step {db : DB} {M D : Nat} (hb : DBBound db M D) {s s' : NSt} {l : NLabel} (hi : NodeInv M D s)
    (h : nodeStep db s l = some s') (h1 : s'.nIdent ≤ 1) : NodeInv M D s' := by
  obtain ⟨k1, k2, k3, k4, k5, k6, k7⟩ := hi
  have u := usable_step k3 k4 k2 k1 h
  exact ⟨wake_step k1 h, id_step k2 h, u.1, u.2, len_step hb k1 k5 h h1, wait_step k1 k6 h h1, present_step k7 h⟩

theorem identify_one {db : DB} {s s' : NSt} (h : nodeStep db s .identify = some s') : s'.nIdent = s.nIdent + 1 := by
  unfold nodeStep at h
  split at h
  · cases h
  injection h with h
  subst h
  rfl

variable {db : DB} {M D : Nat} {e : Exec (nodeStep db)} {k : Nat}

/-- Along an execution in which `Identify` is called once. -/
theorem exec_inv (hb : DBBound db M D) {n : Node} (hn : FreshOk n) (hu : Usable n) (h0 : e.st 0 = NSt.start n)
    (ho : IdentifiedOnce e k) : ∀ m, (e.st m).nIdent = (if k < m then 1 else 0) ∧ NodeInv M D (e.st m) := by
  intro m
  induction m with
  | zero => rw [h0]; exact ⟨rfl, nodeInv_start hn hu M D⟩
  | succ m ih =>
    have hx := e.next m
    obtain ⟨i1, i2⟩ := ih
    split at hx
    · next l hl =>
      by_cases hk : m = k
      · have : l = .identify := by
          have := (ho m).2 hk
          rw [hl] at this
          injection this
        subst this
        have q := identify_one hx
        rw [i1] at q
        subst hk
        simp only [Nat.lt_irrefl, if_false] at q
        exact ⟨by rw [q, if_pos (by omega)], nodeInv_step hb i2 hx (by omega)⟩
      · have : l ≠ .identify := by
          intro h
          subst h
          exact hk ((ho m).1 hl)
        have q := step_one this hx
        rw [i1] at q
        have e1 : (if k < m + 1 then 1 else 0) = (if k < m then 1 else (0 : Nat)) := by
          by_cases h : k < m
          · rw [if_pos h, if_pos (by omega)]
          · rw [if_neg h, if_neg (by omega)]
        refine ⟨by rw [q, e1], nodeInv_step hb i2 hx ?_⟩
        rw [q]; split <;> omega
    · next hl =>
      have : m ≠ k := by
        intro h
        have := (ho m).2 h
        rw [hl] at this
        cases this
      rw [hx]
      refine ⟨?_, i2⟩
      rw [i1]
      by_cases h : k < m
      · rw [if_pos h, if_pos (by omega)]
      · rw [if_neg h, if_neg (by omega)]

/-! ### The lock -/

theorem lock_hold {s s' : NSt} {l : NLabel} (hw : WakeInv s) (j : Nat) (hl : s.lock = some j)
    (h : nodeStep db s l = some s') :
    s'.lock = none ∨ s'.lock = some j ∧ (s'.proc j = s.proc j ∧ l ≠ .proc j ∨ s.proc j = .wakeClose ∧ s'.proc j = .wakeNil) ∨
      s'.crashed ≠ none := by
  have f2 := hw.freshP
  have w2 := hw.own1
  have w3 := hw.own2
  have w4 := hw.closing
  have w5 := hw.held
  clear hw
  node_step h
  all_goals grind [updN]

theorem lock_enabled {s : NSt} (hi : NodeInv M D s) (j : Nat) (hl : s.lock = some j) :
    Enabled (nodeStep db) (fun l => l = .proc j) s := by
  have ha := hi.alive
  refine ⟨.proc j, ?_⟩
  unfold nodeStep
  simp only [ha, Option.isSome_none, Bool.false_eq_true, if_false, procStep]
  rcases hi.wake.held j hl with h | h
  · obtain ⟨c, h1, h2⟩ := hi.wake.closing j h
    simp [h, h1, h2]
  · simp [h]

/-- The lock of the node becomes free. -/
theorem lock_frees (hf : FairNode e) (hinv : ∀ m, NodeInv M D (e.st m)) (n : Nat) :
    ∃ m, n ≤ m ∧ (e.st m).lock = none := by
  cases hl : (e.st n).lock with
  | none => exact ⟨n, Nat.le_refl _, hl⟩
  | some j =>
    refine leads_rank e (hf.proc j) (Q := fun s => s.lock = some j) (R := fun s => s.lock = none)
      (fun s => if s.proc j = .wakeClose then 1 else 0) (n0 := n) ?_ ?_ (Nat.le_refl _) hl
    · intro m _ hq l hs
      rcases lock_hold (hinv m).wake j hq hs with h | ⟨h, h'⟩ | h
      · exact .inl h
      · refine .inr ⟨h, ?_⟩
        rcases h' with ⟨h1, h2⟩ | ⟨h1, h2⟩
        · exact ⟨by rw [h1]; exact Nat.le_refl _, fun h => absurd h h2⟩
        · simp [h1, h2]
      · exact absurd (hinv (m + 1)).alive h
    · intro m _ hq
      exact ⟨m, Nat.le_refl _, lock_enabled (hinv m) j (hq m (Nat.le_refl _))⟩

/-! ### The identification can move -/

theorem ident_enabled {s : NSt} (hi : NodeInv M D s) (h1 : s.nIdent = 1) (hd : s.ident 0 ≠ .done)
    (hw : ∀ p c, s.ident 0 ≠ .awWait p c) (hl : s.lock = none) :
    Enabled (nodeStep db) (fun l => ∃ a, l = .ident 0 a) s := by
  have ha := hi.pres 0 (by omega)
  have uc := hi.alive
  have al := hi.wake.alive 0
  suffices h : ∃ s', nodeStep db s (.ident 0 .nothing) = some s' by
    obtain ⟨s', h⟩ := h
    exact ⟨_, s', ⟨_, rfl⟩, h⟩
  unfold nodeStep
  rw [uc]
  simp only [Option.isSome_none, Bool.false_eq_true, if_false, identStep]
  cases hp : s.ident 0 with
  | absent => exact absurd hp ha
  | done => exact absurd hp hd
  | awWait p c => exact absurd hp (hw p c)
  | query t =>
    cases t with
    | nil => simp [hl]
    | cons v t =>
      have ite : ∀ (c : Prop) [Decidable c] (a b : Option NSt), (∃ x, a = some x) → (∃ x, b = some x) →
          ∃ x, (if c then a else b) = some x := by
        intro c _ a b ha hb; split <;> assumption
      exact ite _ _ _ ⟨_, rfl⟩ (ite _ _ _ ⟨_, rfl⟩ (ite _ _ _ ⟨_, rfl⟩ ⟨_, rfl⟩))
  | send p => cases p <;> simp [hl] <;> split <;> simp
  | reply p =>
    cases p with
    | states => rw [hp] at al; cases al
    | manufacturer => simp
    | endpoints => simp
  | _ => simp [hl] <;> (try split) <;> simp

theorem ident_same {s s' : NSt} {l : NLabel} (hw : WakeInv s) (h1 : s.nIdent = 1) (hl : ∀ a, l ≠ .ident 0 a)
    (h : nodeStep db s l = some s') : s'.ident 0 = s.ident 0 := by
  have f := hw.fresh
  clear hw
  node_step h
  all_goals grind [updN]

/-- A wake-up on its way stays on its way until the channel is closed. -/
theorem closing_step {s s' : NSt} {l : NLabel} (hw : WakeInv s) (j c : Nat) (hp : s.proc j = .wakeClose)
    (hc : s.awake = some c) (h : nodeStep db s l = some s') :
    s'.closed c = true ∨ s'.proc j = .wakeClose ∧ l ≠ .proc j ∨ s'.crashed ≠ none := by
  have f2 := hw.freshP
  have w2 := hw.own1
  have w3 := hw.own2
  have w4 := hw.closing
  clear hw
  node_step h
  all_goals grind [updN]

theorem wake_begins {s s' : NSt} {c : Nat} (hc : s.awake = some c) (h : nodeStep db s (.report .wakeUp) = some s') :
    s'.proc s.nProc = .wakeClose ∧ s'.closed = s.closed := by
  unfold nodeStep at h
  split at h
  · cases h
  simp only at h
  split at h
  · injection h with h
    subst h
    simp [reportStep, hc, updN]
  · cases h

/-- An identification that is neither finished nor waiting on nil can move again and again. -/
theorem ident_can (hf : FairNode e) (hwk : WakesUp e ∨ ∀ m p c, (e.st m).ident 0 ≠ .awWait p c)
    (hinv : ∀ m, NodeInv M D (e.st m)) {n0 : Nat}
    (h1 : ∀ m, n0 ≤ m → (e.st m).nIdent = 1) (n : Nat) (hn0 : n0 ≤ n)
    (hq : ∀ m, n ≤ m → (e.st m).ident 0 ≠ .done ∧ ∀ p, (e.st m).ident 0 ≠ .awWait p none) :
    ∃ m, n ≤ m ∧ Enabled (nodeStep db) (fun l => ∃ a, l = .ident 0 a) (e.st m) := by
  apply Classical.byContradiction
  intro hno
  have hno' : ∀ m, n ≤ m → ¬ Enabled (nodeStep db) (fun l => ∃ a, l = .ident 0 a) (e.st m) :=
    fun m hm h => hno ⟨m, hm, h⟩
  have hlab : ∀ m, n ≤ m → ∀ a, e.lab m ≠ some (.ident 0 a) := by
    intro m hm a hl
    have := e.next m
    rw [hl] at this
    exact hno' m hm ⟨_, _, ⟨a, rfl⟩, this⟩
  have hsame : ∀ m, n ≤ m → (e.st m).ident 0 = (e.st n).ident 0 := by
    intro m hm
    induction hm with
    | refl => rfl
    | step hm ih =>
      next m =>
      have hx := e.next m
      split at hx
      · next l hl =>
        rw [ident_same (hinv m).wake (h1 m (Nat.le_trans hn0 hm)) (fun a h => hlab m hm a (by rw [hl, h])) hx]
        exact ih
      · rw [hx]; exact ih
  by_cases hw : ∃ p c, (e.st n).ident 0 = .awWait p c
  · obtain ⟨p, c, hw⟩ := hw
    rcases hwk with hwk | hwk
    case inr => exact hwk n p c hw
    cases c with
    | none => exact (hq n (Nat.le_refl _)).2 p hw
    | some c =>
      have hop : ∀ m, n ≤ m → (e.st m).closed c = false := by
        intro m hm
        cases hcl : (e.st m).closed c with
        | false => rfl
        | true =>
          have hi : (e.st m).ident 0 = .awWait p (some c) := by rw [hsame m hm, hw]
          refine absurd ⟨.ident 0 .nothing, { (e.st m).goto 0 (.send p) with hist := .passes 0 :: (e.st m).hist },
            ⟨_, rfl⟩, ?_⟩ (hno' m hm)
          unfold nodeStep
          simp only [(hinv m).alive, Option.isSome_none, Bool.false_eq_true, if_false, identStep, hi, hcl, if_true]
      have haw : ∀ m, n ≤ m → (e.st m).awake = some c := fun m hm =>
        (hinv m).wait.wt 0 p c (by rw [hsame m hm, hw]) (hop m hm)
      obtain ⟨m1, hm1, hl1⟩ := hwk n
      have hx := e.next m1
      rw [hl1] at hx
      have hb := (wake_begins (haw m1 hm1) hx).1
      obtain ⟨m2, g1, g2⟩ := leads e (hf.proc (e.st m1).nProc) (Q := fun s => s.proc (e.st m1).nProc = .wakeClose)
        (R := fun s => s.closed c = true) (n0 := m1 + 1)
        (fun m hm hq l hs => by
          rcases closing_step (hinv m).wake _ c hq (haw m (by omega)) hs with h | h | h
          · exact .inl h
          · exact .inr h
          · exact absurd (hinv (m + 1)).alive h)
        (fun m hm hq => ⟨m, Nat.le_refl _, lock_enabled (hinv m) _ ((hinv m).wake.own1 _ (hq m (Nat.le_refl _)))⟩)
        (Nat.le_refl _) hb
      rw [hop m2 (by omega)] at g2
      cases g2
  · obtain ⟨m, hm, hl⟩ := lock_frees hf hinv n
    refine hno' m hm (ident_enabled (hinv m) (h1 m (by omega)) (hq m hm).1 (fun p c h => hw ⟨p, c, ?_⟩) hl)
    rw [← hsame m hm, h]

/-! ### Answers -/

/-- The node knows what was asked for. -/
def hasGot (a : Asked) (s : NSt) : Bool :=
  match a with
  | .info => s.node.protocolInfo.isSome
  | .manufacturer => s.node.manufacturer.isSome
  | .endpoints => s.node.endpoints.isSome

theorem got_stays {s s' : NSt} {l : NLabel} (a : Asked) (hg : hasGot a s = true) (h : nodeStep db s l = some s') :
    hasGot a s' = true := by
  cases a <;> simp only [hasGot] at hg ⊢ <;> node_step h
  all_goals first
    | assumption
    | rfl
    | grind [SameCore, → alarmOn_ok, → alarmOff_ok, → applyState_core, setManufacturer_fields]

theorem asked_lacks {s : NSt} (hi : LenInv M D s) {a : Asked} (h : asked (s.ident 0) = some a) : hasGot a s = false := by
  have k4 := hi.inf 0
  have k5 := hi.man 0
  have k6 := hi.eps 0
  unfold asked at h
  split at h
  · next hp => cases h; simp [hasGot, k4 hp]
  · next hp => cases h; simp [hasGot, k5 (by rw [hp]; rfl)]
  · next hp => cases h; simp [hasGot, k6 (by rw [hp]; rfl)]
  · cases h

theorem answer_got {s s' : NSt} {a : Asked} {ans : Answer} (hp : asked (s.ident 0) = some a) (ha : answers a ans = true)
    (h : nodeStep db s (.ident 0 ans) = some s') : hasGot a s' = true := by
  unfold nodeStep at h
  split at h
  · cases h
  simp only [identStep] at h
  cases hq : s.ident 0 with
  | info =>
    rw [hq] at hp h
    simp only [asked, Option.some.injEq] at hp
    subst hp
    cases ans <;> simp [answers] at ha
    simp only at h
    split at h
    · injection h with h; subst h; rfl
    · cases h
  | reply p =>
    rw [hq] at hp h
    cases p with
    | manufacturer =>
      simp only [asked, Option.some.injEq] at hp
      subst hp
      cases ans <;> simp [answers] at ha
      next r =>
      cases r <;> simp [answers] at ha
      simp only at h
      split at h
      · injection h with h; subst h
        simp [hasGot, setManufacturer_fields]
      · cases h
    | endpoints =>
      simp only [asked, Option.some.injEq] at hp
      subst hp
      cases ans <;> simp [answers] at ha
      next r =>
      cases r <;> simp [answers] at ha
      simp only at h
      split at h
      · injection h with h; subst h; rfl
      · cases h
    | states => simp [asked] at hp
  | _ => rw [hq] at hp; simp [asked] at hp

/-- A node that answers in the end: from some moment on every request is answered as asked. -/
theorem eventually_answered (hinv : ∀ m, NodeInv M D (e.st m)) (hl : FairLoss e) :
    ∃ N, ∀ m l, N ≤ m → e.lab m = some l → Answered (e.st m) l := by
  have key : ∀ a, ∃ N, ∀ m ans, N ≤ m → e.lab m = some (.ident 0 ans) → asked ((e.st m).ident 0) = some a →
      answers a ans = true := by
    intro a
    apply Classical.byContradiction
    intro hno
    have hno' : ∀ N, ∃ m ans, N ≤ m ∧ e.lab m = some (.ident 0 ans) ∧ asked ((e.st m).ident 0) = some a := by
      intro N
      apply Classical.byContradiction
      intro h
      exact hno ⟨N, fun m ans h1 h2 h3 => absurd ⟨m, ans, h1, h2, h3⟩ h⟩
    obtain ⟨m, ans, g1, g2, g3⟩ := hl a hno'
    have hx := e.next m
    rw [g1] at hx
    have hg := answer_got g2 g3 hx
    obtain ⟨m', ans', f1, f2, f3⟩ := hno' (m + 1)
    have := exec_keep e (Q := fun s => hasGot a s = true) (fun s l s' h1 h2 => got_stays a h1 h2) hg m' f1
    rw [asked_lacks (hinv m').len f3] at this
    cases this
  obtain ⟨N1, h1⟩ := key .info
  obtain ⟨N2, h2⟩ := key .manufacturer
  obtain ⟨N3, h3⟩ := key .endpoints
  refine ⟨N1 + N2 + N3, fun m l hm hlab => ?_⟩
  cases l with
  | ident i a =>
    by_cases hi : i = 0
    · subst hi
      simp only [Answered]
      split
      · next hp =>
        have := h1 m a (by omega) hlab (by rw [hp]; rfl)
        cases a <;> simp [answers] at this
        exact ⟨_, rfl⟩
      · next hp =>
        have := h2 m a (by omega) hlab (by rw [hp]; rfl)
        cases a <;> simp [answers] at this
        next r => cases r <;> simp [answers] at this
                  exact ⟨_, rfl⟩
      · next hp =>
        have := h3 m a (by omega) hlab (by rw [hp]; rfl)
        cases a <;> simp [answers] at this
        next r => cases r <;> simp [answers] at this
                  exact ⟨_, rfl⟩
      · trivial
    · have := (hinv m).wake.fresh i (by have := (hinv m).len.one; omega)
      simp [Answered, this]
  | _ => trivial

/-- An identification that is under way ends, or waits on nil for ever. -/
theorem ident_ends_core (hinv : ∀ m, NodeInv M D (e.st m)) (h1 : ∀ m, k + 1 ≤ m → (e.st m).nIdent = 1)
    (hni : ∀ m, k + 1 ≤ m → e.lab m ≠ some .identify) (hf : FairNode e) (hl : FairLoss e)
    (hwk : WakesUp e ∨ ∀ m p c, (e.st m).ident 0 ≠ .awWait p c) :
    ∃ m, k < m ∧ ((e.st m).ident 0 = .done ∨ ∃ p, (e.st m).ident 0 = .awWait p none) := by
  obtain ⟨N, hN⟩ := eventually_answered hinv hl
  apply Classical.byContradiction
  intro hno
  have hno1 : ∀ m, k < m → (e.st m).ident 0 ≠ .done := fun m hm h => hno ⟨m, hm, .inl h⟩
  have hno2 : ∀ m, k < m → ∀ p, (e.st m).ident 0 ≠ .awWait p none := fun m hm p h => hno ⟨m, hm, .inr ⟨p, h⟩⟩
  obtain ⟨m, _, hm⟩ := leads_rank_lab e hf.ident (Q := fun _ => True) (R := fun _ => False) (stepsLeft (M + D))
    (n0 := N + k + 1) (n := N + k + 1)
    (fun m hm _ l hlab hs => by
      refine .inr ⟨trivial, ?_⟩
      by_cases hid : ∃ i a, l = .ident i a
      · obtain ⟨i, a, rfl⟩ := hid
        have := (left_step (hinv m).wake (hinv m).len (hN m _ (by omega) hlab) hs (hinv (m + 1)).alive).1
        exact ⟨Nat.le_of_lt this, fun _ => this⟩
      · have := (left_other (L := M + D) (hinv m).wake (l := l) (by
          cases l <;> first | rfl | exact absurd ⟨_, _, rfl⟩ hid) (fun h => by
            subst h
            exact hni m (by omega) hlab) hs).1
        rw [this]
        exact ⟨Nat.le_refl _, fun h => absurd (by obtain ⟨a, h⟩ := h; exact ⟨0, a, h⟩) hid⟩)
    (fun m hm _ => ident_can hf hwk hinv h1 m (by omega) fun m' hm' => ⟨hno1 m' (by omega), hno2 m' (by omega)⟩)
    (Nat.le_refl _) trivial
  exact hm

/-- An identification ends, or waits on nil for ever. -/
theorem ident_ends (hb : DBBound db M D) {n : Node} (hn : FreshOk n) (hu : Usable n) (h0 : e.st 0 = NSt.start n)
    (ho : IdentifiedOnce e k) (hf : FairNode e) (hl : FairLoss e)
    (hwk : WakesUp e ∨ ∀ m p c, (e.st m).ident 0 ≠ .awWait p c) :
    ∃ m, k < m ∧ ((e.st m).ident 0 = .done ∨ ∃ p, (e.st m).ident 0 = .awWait p none) := by
  have hall := exec_inv hb hn hu h0 ho
  refine ident_ends_core (fun m => (hall m).2) (fun m hm => by rw [(hall m).1, if_pos (by omega)]) (fun m hm h => ?_) hf hl hwk
  have := (ho m).1 h
  omega

/-! ### Nodes that listen, and wake-ups that are not lost -/

def beyondTest : IdentAt → Bool
  | .awNil _ | .awMake _ | .awRet _ | .awWait .. => true
  | _ => false

/-- A listening node is never waited for. -/
theorem listen_step {s s' : NSt} {l : NLabel} (hd : IdInv s)
    (hi : (s.node.protocolInfo.isSome = true → s.node.isAwake = true) ∧ ∀ i, beyondTest (s.ident i) = false)
    (hl : ∀ i p, l = .ident i (.info p) → p.listening = true) (h : nodeStep db s l = some s') :
    (s'.node.protocolInfo.isSome = true → s'.node.isAwake = true) ∧ ∀ i, beyondTest (s'.ident i) = false := by
  obtain ⟨k1, k2⟩ := hi
  have g := hd.l1
  clear hd
  node_step h
  all_goals try have q := congrArg lvl (by assumption : NSt.ident s _ = _)
  all_goals try conv at q => rhs; whnf
  all_goals constructor
  all_goals first
    | assumption
    | grind [updN, beyondTest, SameCore, → alarmOn_ok, → alarmOff_ok, → applyState_core, setManufacturer_fields]

/-- A channel that is returned before its wake-up is waited on. -/
theorem norace_step {s s' : NSt} {l : NLabel} (hw : WakeInv s) (h1 : s.nIdent ≤ 1)
    (hi : (∀ p, s.ident 0 = .awRet p → s.awake ≠ none) ∧ ∀ p, s.ident 0 ≠ .awWait p none)
    (hl : ∀ j p, l = .proc j → s.proc j = .wakeNil → s.ident 0 ≠ .awRet p) (h : nodeStep db s l = some s') :
    (∀ p, s'.ident 0 = .awRet p → s'.awake ≠ none) ∧ ∀ p, s'.ident 0 ≠ .awWait p none := by
  obtain ⟨k1, k2⟩ := hi
  have f := hw.fresh
  clear hw
  node_step h
  all_goals constructor
  all_goals first
    | assumption
    | grind [updN]

end Verif.Lemmas.NodeM
