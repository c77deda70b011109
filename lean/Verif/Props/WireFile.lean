import Verif.Props.SavePending
import Verif.Props.AlarmWire
import Verif.Props.Web
import Verif.Props.CtlEvents

/-
C122: what a node said on the wire is in the end in the file, and found there after a restart.
-/

set_option linter.unusedSimpArgs false
set_option linter.unusedVariables false
set_option maxHeartbeats 1000000

namespace Verif.Props

open Verif.Go Verif.Model Verif.Spec Verif.Spec.SaveEnd Verif.Lemmas Verif.Lemmas.NodeM Verif.Lemmas.Ctl

variable {db : DB} {ns : List Node}

/-! ### Updates stop when nothing arrives -/

/-- Sum of the first values. -/
def sumTo (g : Nat → Nat) : Nat → Nat
  | 0 => 0
  | n + 1 => sumTo g n + g n

theorem sumTo_congr {g g' : Nat → Nat} {n : Nat} (h : ∀ k, k < n → g' k = g k) : sumTo g' n = sumTo g n := by
  induction n with
  | zero => rfl
  | succ n ih => simp only [sumTo, h n (Nat.lt_succ_self n), ih fun k hk => h k (by omega)]

theorem sumTo_one {g g' : Nat → Nat} {n k : Nat} (hk : k < n) (h : ∀ i, i ≠ k → g' i = g i) :
    sumTo g' n + g k = sumTo g n + g' k := by
  induction n with
  | zero => cases hk
  | succ n ih =>
    simp only [sumTo]
    by_cases e : k = n
    · subst e
      rw [sumTo_congr fun i hi => h i (by omega)]
      omega
    · rw [h n (fun h => e h.symm)]
      have := ih (by omega)
      omega

/-! ### How many updates an identification can push -/

def one {α : Type} (o : Option α) : Nat := if o.isSome then 0 else 1

/-- The update after the endpoints (node.go 256-261) and the last one (295). -/
def laterPushes : IdentAt → Nat
  | .absent | .mark | .done => 0
  | .endpointsEvent => 2
  | _ => 1

/-- How many updates the identification of a node can still push. -/
def identLeft (x : NSt) : Nat :=
  one x.node.protocolInfo + one x.node.manufacturer + one x.node.endpoints + laterPushes (x.ident 0)

/-- Where the identification waits for a reply, it does not know yet what it asked for. -/
structure AskInv (x : NSt) : Prop where
  info : x.ident 0 = .info → x.node.protocolInfo = none
  man : purpose (x.ident 0) = some .manufacturer → x.node.manufacturer = none
  ends : purpose (x.ident 0) = some .endpoints → x.node.endpoints = none

theorem ask_step {x x' : NSt} {l : NLabel} (hw : WakeInv x) (h : nodeStep db x l = some x') (h1 : x'.nIdent ≤ 1)
    (hi : AskInv x) : AskInv x' := by
  have f := hw.fresh
  obtain ⟨k1, k2, k3⟩ := hi
  have a1 : purpose .absent = none := rfl
  clear hw
  node_step h
  all_goals try have q := congrArg purpose (by assumption : NSt.ident x _ = _)
  all_goals try conv at q => rhs; whnf
  all_goals constructor
  all_goals first
    | assumption
    | (simp only [] at h1; grind [updN, purpose, SameCore, → alarmOn_ok, → alarmOff_ok, → applyState_core, setManufacturer_fields])

theorem askInv {n : Node} {x : NSt} (h : NReach db n x) (h1 : x.nIdent ≤ 1) : AskInv x := by
  obtain ⟨ls, h⟩ := h
  refine (run_induct_one (db := db) (P := fun s => WakeInv s ∧ AskInv s)
    (fun s l s' hp hs h1 => ⟨wake_step hp.1 hs, ask_step hp.1 hs h1 hp.2⟩) ls _ _ ⟨wakeInv_start n, ?_⟩ h h1).2
  constructor <;> simp [NSt.start, purpose]

/-- How many alarms of the node are still to be cleared. -/
def pulses (x : NSt) : Nat := sumTo (fun j => if x.proc j = .pulse then 1 else 0) x.nProc

/-- How many updates a node can still push. -/
def nodeLeft (x : NSt) : Nat := pulses x + identLeft x

/-- How many updates a delivery can still cause, with the alarm it may raise. -/
def delivLeft : DelivAt → Nat
  | .call _ _ | .look _ _ | .process _ _ => 2
  | _ => 0

/-- The updates that were pushed, and those that can come of what is under way. -/
def bound (s : CSt) : Nat :=
  updates s.hist + sumTo (fun k => delivLeft (s.deliv k)) s.nDeliv + sumTo (fun r => nodeLeft (s.heap r)) s.nHeap

/-- How many updates a step can add to what a node has pushed and will push. -/
def reportAdds : NLabel → Nat
  | .report _ => 2
  | _ => 0

theorem pulses_new {x : NSt} {a : ProcAt} (hn : a ≠ .pulse ∨ a = .pulse) :
    sumTo (fun j => if updN x.proc x.nProc a j = .pulse then 1 else 0) (x.nProc + 1) ≤ pulses x + 1 := by
  simp only [sumTo, pulses]
  rw [sumTo_congr (g' := fun j => if updN x.proc x.nProc a j = .pulse then 1 else 0)
    (g := fun j => if x.proc j = .pulse then 1 else 0)]
  · split <;> omega
  · intro k hk
    simp only [updN, Nat.ne_of_lt hk, if_false]

theorem pulses_upd {x : NSt} {a : ProcAt} {j : Nat} (hj : j < x.nProc) (ha : a ≠ .pulse) :
    sumTo (fun k => if updN x.proc j a k = .pulse then 1 else 0) x.nProc + (if x.proc j = .pulse then 1 else 0) = pulses x := by
  have := sumTo_one (g := fun j => if x.proc j = .pulse then 1 else 0)
    (g' := fun k => if updN x.proc j a k = .pulse then 1 else 0) hj (by intro i hi; simp only [updN, hi, if_false])
  simp only [updN, if_pos, ha, if_false, Nat.add_zero] at this
  exact this

theorem push_one (h : List NEv) : List.countP (fun e => decide (e = NEv.pushed)) (.pushed :: h) =
    List.countP (fun e => decide (e = NEv.pushed)) h + 1 := by simp

theorem rest_bound {x x' : NSt} {l : NLabel} (hw : WakeInv x) (h : nodeStep db x l = some x') (hi : ∀ i a, l ≠ .ident i a)
    (hl : l ≠ .identify) : nodePushes x' + pulses x' ≤ nodePushes x + pulses x + reportAdds l := by
  have hj : ∀ j a, x.proc j = a → a ≠ .absent → j < x.nProc := by
    intro j a h1 h2
    rcases Nat.lt_or_ge j x.nProc with h3 | h3
    · exact h3
    · rw [hw.freshP j h3] at h1
      exact absurd h1.symm h2
  have hp := @pulses_new x
  have h1 : ∀ j, x.proc j = .pulse → sumTo (fun k => if updN x.proc j .done k = .pulse then 1 else 0) x.nProc + 1 = pulses x := by
    intro j q
    have := pulses_upd (a := .done) (hj _ _ q (by decide)) (by decide)
    rwa [if_pos q] at this
  have h2 : ∀ j, x.proc j = .wakeClose → sumTo (fun k => if updN x.proc j .wakeNil k = .pulse then 1 else 0) x.nProc = pulses x := by
    intro j q
    have := pulses_upd (a := .wakeNil) (hj _ _ q (by decide)) (by decide)
    rwa [if_neg (by rw [q]; decide), Nat.add_zero] at this
  have h3 : ∀ j, x.proc j = .wakeNil → sumTo (fun k => if updN x.proc j .done k = .pulse then 1 else 0) x.nProc = pulses x := by
    intro j q
    have := pulses_upd (a := .done) (hj _ _ q (by decide)) (by decide)
    rwa [if_neg (by rw [q]; decide), Nat.add_zero] at this
  node_step h
  all_goals try (exact absurd rfl (hi _ _))
  all_goals try (exact absurd rfl hl)
  all_goals first
    | (simp only [reportAdds, nodePushes, pulses, NSt.push, NSt.goto]; exact Nat.le_add_right _ _)
    | (simp only [reportAdds, nodePushes, pulses, NSt.push, push_one]; have := hp (a := .pulse) (.inr rfl); simp only [pulses] at this; omega)
    | (simp only [reportAdds, nodePushes, pulses, NSt.push, push_one]; have := hp (a := .wakeClose) (.inl (by decide)); simp only [pulses] at this; omega)
    | (simp only [reportAdds, nodePushes, pulses, NSt.push, push_one]; omega)
    | (simp only [reportAdds, nodePushes, pulses, NSt.push, push_one]; have := h1 _ (by assumption); simp only [pulses] at this; omega)
    | (simp only [reportAdds, nodePushes, pulses, NSt.push, push_one]; have := h2 _ (by assumption); simp only [pulses] at this; omega)
    | (simp only [reportAdds, nodePushes, pulses, NSt.push, push_one]; have := h3 _ (by assumption); simp only [pulses] at this; omega)

theorem rest_left {x x' : NSt} {l : NLabel} (h : nodeStep db x l = some x') (hi : ∀ i a, l ≠ .ident i a)
    (hl : l ≠ .identify) : identLeft x' = identLeft x := by
  have hc : ∀ n' : Node, SameCore x.node n' → one n'.protocolInfo + one n'.manufacturer + one n'.endpoints + laterPushes (x.ident 0) =
      one x.node.protocolInfo + one x.node.manufacturer + one x.node.endpoints + laterPushes (x.ident 0) := by
    intro n' h
    rw [h.protocolInfo, h.manufacturer, h.endpoints]
  node_step h
  all_goals first
    | rfl
    | exact absurd rfl (hi _ _)
    | exact absurd rfl hl
    | exact hc _ (alarmOn_ok (by assumption)).1
    | exact hc _ (alarmOff_ok (by assumption)).1
    | exact hc _ (applyState_core (by assumption))

theorem one_le {α : Type} (o : Option α) : one o ≤ 1 := by unfold one; split <;> omega

theorem ident_left {x x' : NSt} {l : NLabel} (hw : WakeInv x) (hi : AskInv x) (h1 : x.nIdent ≤ 1)
    (h : nodeStep db x l = some x') (hl : ∃ i a, l = .ident i a) :
    nodePushes x' + identLeft x' ≤ nodePushes x + identLeft x ∧ pulses x' = pulses x := by
  have h0 : ∀ i p, x.ident i = p → p ≠ .absent → i = 0 := by
    intro i p hp hne
    rcases Nat.lt_or_ge i x.nIdent with h2 | h2
    · omega
    · rw [hw.fresh i h2] at hp
      exact absurd hp.symm hne
  obtain ⟨k1, k2, k3⟩ := hi
  clear hw
  have hs := setManufacturer_fields db x.node
  have one_some : ∀ {α : Type} (v : α), one (some v) = 0 := fun _ => rfl
  have one_none : ∀ {α : Type}, one (none : Option α) = 1 := rfl
  node_step h
  all_goals try (obtain ⟨_, _, hl⟩ := hl; cases hl; done)
  all_goals obtain rfl := h0 _ _ (by assumption : NSt.ident x _ = _) (by simp)
  all_goals refine ⟨?_, ?_⟩
  all_goals try rfl
  all_goals have q := congrArg laterPushes (by assumption : NSt.ident x 0 = _)
  all_goals have q' := congrArg purpose (by assumption : NSt.ident x 0 = _)
  all_goals conv at q => rhs; whnf
  all_goals conv at q' => rhs; whnf
  all_goals simp only [identLeft, nodePushes, NSt.push, NSt.goto, NSt.await, push_one, List.countP_cons, updN, if_pos, reduceCtorEq, decide_false, decide_true, Bool.false_eq_true, if_false, hs, one_some, q]
  all_goals try simp only [laterPushes]
  all_goals first
    | omega
    | (rw [k1 (by assumption), one_none]; omega)
    | (rw [k2 q', one_none]; omega)
    | (rw [k3 q', one_none]; omega)

theorem node_left {x x' : NSt} {l : NLabel} (hw : WakeInv x) (hi : AskInv x) (h1 : x.nIdent ≤ 1) (h : nodeStep db x l = some x')
    (hl : l ≠ .identify) : nodePushes x' + nodeLeft x' ≤ nodePushes x + nodeLeft x + reportAdds l := by
  unfold nodeLeft
  by_cases hid : ∃ i a, l = .ident i a
  · have := ident_left hw hi h1 h hid
    omega
  · have h2 := rest_bound hw h (fun i a e => hid ⟨i, a, e⟩) hl
    have h3 := rest_left h (fun i a e => hid ⟨i, a, e⟩) hl
    omega

theorem pushes_mono {x x' : NSt} {l : NLabel} (h : nodeStep db x l = some x') : nodePushes x ≤ nodePushes x' := by
  node_step h
  all_goals first
    | exact Nat.le_refl _
    | (simp only [nodePushes, List.countP_cons]; omega)

theorem put_updates {s : CSt} {r : Nat} {n : NSt} :
    updates (s.put r n).hist ≤ updates s.hist + (if nodePushes (s.heap r) < nodePushes n then 1 else 0) := by
  unfold CSt.put
  dsimp only
  split
  · rename_i h
    rw [if_pos h.1]
    simp [CSt.push, updates]
  · exact Nat.le_add_right _ _

/-- What a step of node `r` adds to the bound. -/
theorem put_bound {s t : CSt} {r : Nat} {n : NSt} {nl : NLabel} (hw : WakeInv (s.heap r)) (hr : r < s.nHeap)
    (ht : t.heap = s.heap) (hu : updates t.hist = updates s.hist) (hn : nodeStep db (s.heap r) nl = some n)
    (hi : AskInv (s.heap r)) (ho : (s.heap r).nIdent ≤ 1) (hl : nl ≠ .identify) :
    updates (t.put r n).hist + sumTo (fun k => nodeLeft ((t.put r n).heap k)) s.nHeap ≤
      updates s.hist + sumTo (fun r => nodeLeft (s.heap r)) s.nHeap + reportAdds nl := by
  have h1 := node_left hw hi ho hn hl
  have h2 := pushes_mono hn
  have h3 := put_updates (s := t) (r := r) (n := n)
  have h4 := sumTo_one (g := fun k => nodeLeft (s.heap k)) (g' := fun k => nodeLeft ((t.put r n).heap k)) hr
    (by intro k hk; rw [put_heap, ht]; simp [updN, hk])
  have h5 : (t.put r n).heap r = n := by rw [put_heap]; simp [updN]
  simp only [h5] at h4
  rw [ht, hu] at h3
  split at h3 <;> omega

theorem deliv_bound {s : CSt} {k : Nat} (a : DelivAt) (hk : k < s.nDeliv) :
    sumTo (fun i => delivLeft (updN s.deliv k a i)) s.nDeliv + delivLeft (s.deliv k) =
      sumTo (fun i => delivLeft (s.deliv i)) s.nDeliv + delivLeft a := by
  have := sumTo_one (g := fun i => delivLeft (s.deliv i)) (g' := fun i => delivLeft (updN s.deliv k a i)) hk
    (by intro i hi; simp only [updN, hi, if_false])
  simpa only [updN, if_pos] using this

theorem bound_step {s s' : CSt} {l : CLabel} (hc : CInv s) (hd : s.disc = .done) (h : cStep db s l = some s')
    (hi : ∀ r, r < s.nHeap → AskInv (s.heap r)) (hl : ∀ id r, l ≠ .arrive id r) : bound s' ≤ bound s := by
  have hlt : ∀ k a, s.deliv k = a → a ≠ .absent → k < s.nDeliv := by
    intro k a h1 h2
    rcases Nat.lt_or_ge k s.nDeliv with h3 | h3
    · exact h3
    · rw [hc.fresh k h3] at h1
      exact absurd h1.symm h2
  have hdel : ∀ k a b, s.deliv k = a → a ≠ .absent → delivLeft b ≤ delivLeft a →
      updates s.hist + sumTo (fun i => delivLeft (updN s.deliv k b i)) s.nDeliv + sumTo (fun r => nodeLeft (s.heap r)) s.nHeap ≤ bound s := by
    intro k a b h1 h2 h3
    have := deliv_bound b (hlt k a h1 h2)
    unfold bound
    rw [h1] at this
    omega
  have hnode : ∀ r n nl, r < s.nHeap → nodeStep db (s.heap r) nl = some n → reportAdds nl = 0 → nl ≠ .identify →
      bound (s.put r n) ≤ bound s := by
    intro r n nl h1 h2 h3 h6
    have := put_bound (t := s) (hc.safe r h1).wake h1 rfl rfl h2 (hi r h1) (hc.one r h1) h6
    have h4 : (s.put r n).nHeap = s.nHeap ∧ (s.put r n).deliv = s.deliv ∧ (s.put r n).nDeliv = s.nDeliv := by
      unfold CSt.put; dsimp only; split <;> exact ⟨rfl, rfl, rfl⟩
    unfold bound
    rw [h4.1, h4.2.1, h4.2.2]
    omega
  have hproc : ∀ k r n rep, s.deliv k = .process r rep → nodeStep db (s.heap r) (.report rep) = some n →
      bound { ({ s with hist := .applied k r rep :: s.hist }.put r n) with deliv := updN s.deliv k .done } ≤ bound s := by
    intro k r n rep h1 h2
    have hr : r < s.nHeap := hc.dref k r (by rw [h1]; rfl)
    have := put_bound (t := { s with hist := .applied k r rep :: s.hist }) (hc.safe r hr).wake hr rfl rfl h2 (hi r hr) (hc.one r hr) (by simp)
    have h4 : ({ s with hist := .applied k r rep :: s.hist }.put r n : CSt).nHeap = s.nHeap ∧
        ({ s with hist := .applied k r rep :: s.hist }.put r n : CSt).nDeliv = s.nDeliv := by
      unfold CSt.put; dsimp only; split <;> exact ⟨rfl, rfl⟩
    have h5 := deliv_bound (s := s) .done (hlt k _ h1 (by simp))
    rw [h1] at h5
    have e1 : delivLeft (.process r rep) = 2 := rfl
    have e2 : delivLeft .done = 0 := rfl
    have e3 : reportAdds (.report rep) = 2 := rfl
    unfold bound
    dsimp only
    rw [h4.1, h4.2]
    omega
  ctl_step h
  all_goals try (simp only [hd, reduceCtorEq] at *; done)
  all_goals first
    | exact Nat.le_refl _
    | exact absurd rfl (hl _ _)
    | exact hproc _ _ _ _ (by assumption) (by assumption)
    | exact hnode _ _ _ (by assumption) (by assumption) rfl (by simp)
    | exact hdel _ _ _ (by assumption) (by simp) (by simp [delivLeft])

/-- A growing sequence that is bounded stops growing. -/
theorem grows_stops {g : Nat → Nat} {n b : Nat} (hm : ∀ m, n ≤ m → g m ≤ g (m + 1)) (hb : ∀ m, n ≤ m → g m ≤ b) :
    ∃ m, n ≤ m ∧ ∀ k, m ≤ k → g k = g m := by
  have mono : ∀ m, n ≤ m → ∀ k, m ≤ k → g m ≤ g k := by
    intro m h1 k hk
    induction hk with
    | refl => exact Nat.le_refl _
    | step hk ih => exact Nat.le_trans ih (hm _ (Nat.le_trans h1 hk))
  suffices h : ∀ d m, n ≤ m → b - g m ≤ d → ∃ m', m ≤ m' ∧ ∀ k, m' ≤ k → g k = g m' by
    obtain ⟨m, h1, h2⟩ := h _ n (Nat.le_refl n) (Nat.le_refl _)
    exact ⟨m, h1, h2⟩
  intro d
  induction d with
  | zero =>
    intro m h1 h2
    refine ⟨m, Nat.le_refl m, fun k hk => ?_⟩
    have := mono m h1 k hk
    have := hb k (Nat.le_trans h1 hk)
    have := hb m h1
    omega
  | succ d ih =>
    intro m h1 h2
    by_cases h : ∃ k, m ≤ k ∧ g m < g k
    · obtain ⟨k, h3, h4⟩ := h
      have := hb k (Nat.le_trans h1 h3)
      obtain ⟨m', h5, h6⟩ := ih k (Nat.le_trans h1 h3) (by omega)
      exact ⟨m', Nat.le_trans h3 h5, h6⟩
    · refine ⟨m, Nat.le_refl m, fun k hk => ?_⟩
      have := mono m h1 k hk
      have : ¬ g m < g k := fun h' => h ⟨k, hk, h'⟩
      omega

/-- C122: after the discovery, when nothing arrives any more, there are in the end no more updates, also if nodes are being identified. -/
theorem C122_updates_stop {e : Exec (cStep db)} {f : Bool} (hg : GoodFile ns) (hr : CReach db f ns (e.st 0)) {n : Nat}
    (hd : (e.st n).disc = .done) (ha : (e.st n).saver ≠ .absent) {k : Nat} (hl : ∀ m, k ≤ m → ∀ id r, e.lab m ≠ some (.arrive id r)) :
    ∃ m, n ≤ m ∧ k ≤ m ∧ ∀ m', m ≤ m' → updates (e.st m').hist = updates (e.st m).hist := by
  have reach := cexec_reach hr
  have hc := fun m => cinv hg (reach m)
  have stay : ∀ m, n ≤ m → (e.st m).disc = .done ∧ (e.st m).saver ≠ .absent := by
    refine exec_keep e (Q := fun s => s.disc = .done ∧ s.saver ≠ .absent) (fun s l s' h hst => ?_) ⟨hd, ha⟩
    obtain ⟨-, g2, g3, g4, -, -⟩ := Verif.Lemmas.Ctl.left_step h.1 h.2 hst
    exact ⟨g2, g3⟩
  have ask : ∀ m r, r < (e.st m).nHeap → AskInv ((e.st m).heap r) := by
    intro m r hlt
    obtain ⟨v, -, -, -, h1, -⟩ := ctl_node hg (reach m) hlt
    exact askInv h1 ((hc m).one r hlt)
  have step : ∀ m, n + k ≤ m → updates (e.st m).hist ≤ updates (e.st (m + 1)).hist ∧ bound (e.st (m + 1)) ≤ bound (e.st m) := by
    intro m hm
    have hst := e.next m
    obtain ⟨s1, s2⟩ := stay m (by omega)
    cases hlab : e.lab m with
    | none => rw [hlab] at hst; simp only at hst; rw [hst]; exact ⟨Nat.le_refl _, Nat.le_refl _⟩
    | some l =>
      rw [hlab] at hst
      exact ⟨(Verif.Lemmas.Ctl.left_step s1 s2 hst).1, bound_step (hc m) s1 hst (ask m)
        fun id r h => hl m (by omega) id r (by rw [hlab, h])⟩
  have low : ∀ m, n + k ≤ m → bound (e.st m) ≤ bound (e.st (n + k)) := by
    intro m hm
    induction hm with
    | refl => exact Nat.le_refl _
    | step hm ih => exact Nat.le_trans (step _ hm).2 ih
  obtain ⟨m, h1, h2⟩ := grows_stops (g := fun m => updates (e.st m).hist) (n := n + k) (b := bound (e.st (n + k)))
    (fun m hm => (step m hm).1)
    (fun m hm => Nat.le_trans (by unfold bound; omega) (low m hm))
  exact ⟨m, by omega, by omega, h2⟩

/-! ### From the wire to the file -/

open Verif.Model.Conn Verif.Lemmas.Conn Verif.Lemmas.EndToEnd Verif.Lemmas.System

variable {lv : LoopVars} {e : Exec (sysStep lv db)}

/-- A reader that waits for bytes or for the port hands out nothing. -/
theorem rest_silent {s : Sys} {l : SLabel} (h : s.conn.reader = .read ∨ s.conn.reader = .down) (hl : ∀ c, l = .ctl c → ownStep s.result c = true)
    (id : UInt8) (r : Report) : ctlLab s (some l) ≠ some (.arrive id r) := by
  cases l with
  | conn l =>
    simp only [ctlLab, handed]
    rcases h with h | h <;> rw [h] <;> cases l <;> simp
    all_goals (rename_i a; cases a <;> simp)
  | ctl l =>
    simp only [ctlLab]
    rintro h'
    injection h' with h'
    have := hl l rfl
    rw [h'] at this
    cases this
  | connected ok => simp [ctlLab]

theorem silent_after {k : Nat} (hk : ∀ m, k ≤ m → (e.st m).conn.reader = .read ∨ (e.st m).conn.reader = .down) (m : Nat) (hm : k ≤ m)
    (id : UInt8) (r : Report) : (ctlExec e).lab m ≠ some (.arrive id r) := by
  show ctlLab (e.st m) (e.lab m) ≠ _
  cases hlab : e.lab m with
  | none => simp [ctlLab]
  | some l =>
    refine rest_silent (hk m hm) ?_ id r
    rintro c rfl
    have := e.next m
    rw [hlab] at this
    simp only [sysStep] at this
    grind

/-- C122: after the discovery, when no node is being identified, the saver runs, something was announced and the wire has fallen
silent, the file says in the end what is known about the nodes, and goes on saying it. -/
theorem C122_file_partial (hf : FairSys e) (hg : GoodFile ns) (h0 : e.st 0 = sysStart true ns) (x : FileAt) {n0 n : Nat}
    (hd : (e.st n0).ctl.disc = .done) {b : UInt8} {ref : Nat} (hl : (e.st n0).ctl.list.get b.toNat = some ref)
    (hb : AllApplied b (e.st n0).ctl) (hq : NoMoreRequests e n) (hr : NoMoreReads e n) {xs : List Session}
    (hx : sessions (connSteps e n) = xs.map Session.reads) (ho : ∀ x ∈ xs, x.Ok)
    (ha : (e.st n0).ctl.saver ≠ .absent) (hs : (e.st n0).ctl.saver ≠ .stuck) (hu : 0 < updates (e.st n0).ctl.hist)
    (hi : ∀ id ref i, (id, ref) ∈ (e.st n0).ctl.list →
      ((e.st n0).ctl.heap ref).ident i = .absent ∨ ((e.st n0).ctl.heap ref).ident i = .done) :
    ∃ m, ∀ m', m ≤ m' → Sys.dead (e.st m') ∨ (fileAt (ctlExec e) x m').text = saveText (e.st m').ctl.nodes := by
  by_cases hdead : ∃ m, Sys.dead (e.st m)
  · obtain ⟨m, hm⟩ := hdead
    exact ⟨m, fun m' h => .inl (dead_stays h hm)⟩
  have hal : ∀ m, ¬ Sys.dead (e.st m) := fun m h => hdead ⟨m, h⟩
  obtain ⟨k, hk⟩ := C100_all_applied hf hg h0 hd hl hb hq hr hx ho
  have hs0 : (ctlExec e).st 0 = start true ns := by show (e.st 0).ctl = _; rw [h0]; rfl
  have hre : CReach db true ns ((ctlExec e).st 0) := by rw [hs0]; exact ⟨[], rfl⟩
  obtain ⟨m, h1, h2, h3⟩ := C122_updates_stop (e := ctlExec e) hg hre (n := n0) hd ha (k := k)
    (silent_after fun m hm => ((hk m hm).resolve_left (hal m)).1.rest)
  have keep := exec_keep (ctlExec e) (Q := fun s => s.disc = .done ∧ s.saver ≠ .absent ∧ s.saver ≠ .stuck ∧
      s.list = (e.st n0).ctl.list ∧ updates (e.st n0).ctl.hist ≤ updates s.hist ∧
      ∀ id ref i, (id, ref) ∈ (e.st n0).ctl.list → (s.heap ref).ident i = .absent ∨ (s.heap ref).ident i = .done)
    (fun s l s' h hst => by
      obtain ⟨q1, q2, q3, q4, q5, q6⟩ := h
      obtain ⟨g1, g2, g3, g4, g5, -⟩ := Verif.Lemmas.Ctl.left_step q1 q2 hst
      exact ⟨g2, g3, g5 q3, g4.trans q4, Nat.le_trans q5 g1, fun id ref i h => ident_rests q1 hst (fun i => q6 id ref i h) i⟩)
    (n := n0) ⟨hd, ha, hs, rfl, Nat.le_refl _, hi⟩
  obtain ⟨q1, q2, q3, q4, q5, q6⟩ := keep m h1
  obtain ⟨m2, h4, h5⟩ := C121_known_in_file_partial (ctl_fair hal hf) hg hs0 x m q1 q2 q3 h3 (fun id ref i h => q6 id ref i (q4 ▸ h))
  refine ⟨m2, fun m' hm => .inr ?_⟩
  rcases h5.resolve_left (fun h => hal m2 (.inr h)) m' hm with h | h
  · exact h
  · have := (keep m' (by omega)).2.2.2.2.1
    omega

theorem restored_bool {v v' : Node} (h : Restored v v') (k : List Char) : boolState v' k = boolState v k := by
  have := h.stateBool
  unfold boolState
  unfold SameMap at this
  cases h1 : v.stateBool <;> cases h2 : v'.stateBool <;> rw [h1, h2] at this <;> first
    | rfl
    | exact (this k).symm
    | exact this.elim

theorem restored_float {v v' : Node} (h : Restored v v') (k : List Char) : floatState v' k = floatState v k := by
  have := h.stateFloat
  unfold floatState
  unfold SameMap at this
  cases h1 : v.stateFloat <;> cases h2 : v'.stateFloat <;> rw [h1, h2] at this <;> first
    | rfl
    | exact (this k).symm
    | exact this.elim

/-- What was shown at a moment when it was in the file is shown again after a restart. -/
theorem restart_shows {e : Exec (cStep db)} (h0 : Life db (e.st 0)) (hl : ∀ m l, e.lab m = some l → SensibleC l) {x : FileAt} {k : Nat}
    (ht : (fileAt e x k).text = saveText (e.st k).nodes) {id : Int} {ref : Nat} (hi : (e.st k).list.get id = some ref)
    (o o' : Order) (f : Bool) :
    ∃ c, loadConfig o o' (some (fileAt e x k).text) (newController f) = .ret false c ∧
      ∃ v, c.nodes.get id = some v ∧ Restored ((e.st k).heap ref).node v := by
  have life : ∀ k, Life db (e.st k) := by
    intro k
    induction k with
    | zero => exact h0
    | succ k ih =>
      have := e.next k
      cases hk : e.lab k with
      | none => rw [hk] at this; simp only at this; rw [this]; exact ih
      | some l => rw [hk] at this; exact .step ih (hl k l hk) this
  rw [ht]
  obtain ⟨c, h1, h2, -⟩ := C48_restored db _ (life k) o o' f
  obtain ⟨v, h3, h4⟩ := h2 id ((e.st k).heap ref).node (by rw [nodes_get, hi]; rfl)
  exact ⟨c, h1, v, h3, h4⟩

/-- After a restart with the file of moment `m`, node `id` is there and `P` holds of it. -/
def ShownAgain (e : Exec (sysStep lv db)) (x : FileAt) (m : Nat) (id : Int) (P : Node → Prop) : Prop :=
  ∀ (o o' : Order) (f : Bool), ∃ c, loadConfig o o' (some (fileAt (ctlExec e) x m).text) (newController f) = .ret false c ∧
    ∃ v, c.nodes.get id = some v ∧ P v

/-- What the reader has handed out stays handed out. -/
theorem callbacks_stay {p : UInt8 × Report} {m : Nat} (h : p ∈ callbacks (e.st m).conn) (m' : Nat) (hm : m ≤ m') :
    p ∈ callbacks (e.st m').conn :=
  exec_keep (connExec e) (Q := fun s => p ∈ callbacks s)
    (fun s l s' h hst => by rw [callbacks_step hst]; exact List.mem_append_left _ h) (n := m) h m' hm

/-- The reports that arrive are decoded from frames. -/
theorem steps_sensible {f : Bool} {xs : List Session} {k : Nat} (hk : ∀ m, k ≤ m → Together lv db f ns xs (e.st m).conn (e.st m).ctl)
    (hsen : ∀ m l, e.lab m = some (.ctl l) → SensibleC l) (m : Nat) (l : CLabel) (hl : (ctlExec e).lab m = some l) : SensibleC l := by
  have hl : ctlLab (e.st m) (e.lab m) = some l := hl
  cases hlab : e.lab m with
  | none => rw [hlab] at hl; cases hl
  | some sl =>
    rw [hlab] at hl
    cases sl with
    | connected ok => cases hl
    | ctl c => cases hl; exact hsen m l hlab
    | conn c =>
      obtain ⟨⟨b, r⟩, h1, rfl⟩ := Option.map_eq_some_iff.1 hl
      have hst := e.next m
      rw [hlab] at hst
      have h2 : step lv (e.st m).conn c = some (e.st (m + 1)).conn := conn_part hst
      have h3 : (b, r) ∈ callbacks (e.st (m + 1)).conn := by rw [callbacks_step h2, h1]; simp
      have h4 := hk (m + 1 + k) (by omega)
      have h5 := callbacks_stay h3 (m + 1 + k) (by omega)
      rw [← h4.joined] at h5
      obtain ⟨fr, -, hfr⟩ := (arrived_iff h4 b r).1 h5
      obtain ⟨cls, cmd, q, -, h6⟩ := hfr
      exact ⟨cls, cmd, q, h6⟩

/-- What a listed node shows in the end, it shows again after a restart. -/
theorem shown_again (hf : FairSys e) (hg : GoodFile ns) (h0 : e.st 0 = sysStart true ns) (x : FileAt) {n0 n : Nat}
    (hd : (e.st n0).ctl.disc = .done) {b : UInt8} {ref : Nat} (hl : (e.st n0).ctl.list.get b.toNat = some ref)
    (hb : AllApplied b (e.st n0).ctl) (hq : NoMoreRequests e n) (hr : NoMoreReads e n) {xs : List Session}
    (hx : sessions (connSteps e n) = xs.map Session.reads) (ho : ∀ x ∈ xs, x.Ok)
    (ha : (e.st n0).ctl.saver ≠ .absent) (hs : (e.st n0).ctl.saver ≠ .stuck) (hu : 0 < updates (e.st n0).ctl.hist)
    (hi : ∀ id ref i, (id, ref) ∈ (e.st n0).ctl.list →
      ((e.st n0).ctl.heap ref).ident i = .absent ∨ ((e.st n0).ctl.heap ref).ident i = .done)
    (hlife : Life db (start true ns)) (hsen : ∀ m l, e.lab m = some (.ctl l) → SensibleC l)
    {P : Node → Prop} (hP : ∀ v v', Restored v v' → P v → P v')
    (h : ∃ m, ∀ m', m ≤ m' → Sys.dead (e.st m') ∨ P ((e.st m').ctl.heap ref).node) :
    ∃ m, ∀ m', m ≤ m' → Sys.dead (e.st m') ∨ ShownAgain e x m' b.toNat P := by
  by_cases hdead : ∃ m, Sys.dead (e.st m)
  · obtain ⟨m, hm⟩ := hdead
    exact ⟨m, fun m' h => .inl (dead_stays h hm)⟩
  have hal : ∀ m, ¬ Sys.dead (e.st m) := fun m h => hdead ⟨m, h⟩
  obtain ⟨k, hk⟩ := C100_all_applied hf hg h0 hd hl hb hq hr hx ho
  have hall := steps_sensible (fun m hm => ((hk m hm).resolve_left (hal m)).1) hsen
  obtain ⟨m1, h1⟩ := C122_file_partial hf hg h0 x hd hl hb hq hr hx ho ha hs hu hi
  obtain ⟨m2, h2⟩ := h
  refine ⟨n0 + m1 + m2, fun m hm => ?_⟩
  rcases h1 m (by omega) with h1 | h1
  · exact .inl h1
  rcases h2 m (by omega) with h2 | h2
  · exact .inl h2
  refine .inr fun o o' f => ?_
  have hs0 : (ctlExec e).st 0 = start true ns := by show (e.st 0).ctl = _; rw [h0]; rfl
  obtain ⟨c, q1, v, q2, q3⟩ := restart_shows (e := ctlExec e) (by rw [hs0]; exact hlife) hall h1
    (show (e.st m).ctl.list.get b.toNat = some ref by rw [list_stays_sys hd m (by omega)]; exact hl) o o' f
  exact ⟨c, q1, v, q2, hP _ _ q3 h2⟩

/-- C122: when the wire has fallen silent and the frames of a listed node that say whether it is on agree, then in the end every
restart finds that in the file, and shows it before anything is read from the wire. -/
theorem C122_on_after_restart_partial (hf : FairSys e) (hg : GoodFile ns) (h0 : e.st 0 = sysStart true ns) (x : FileAt) {n0 n : Nat}
    (hd : (e.st n0).ctl.disc = .done) {b : UInt8} {ref : Nat} (hl : (e.st n0).ctl.list.get b.toNat = some ref)
    (hb : AllApplied b (e.st n0).ctl) (hq : NoMoreRequests e n) (hr : NoMoreReads e n) {xs : List Session}
    (hx : sessions (connSteps e n) = xs.map Session.reads) (ho : ∀ x ∈ xs, x.Ok)
    (ha : (e.st n0).ctl.saver ≠ .absent) (hs : (e.st n0).ctl.saver ≠ .stuck) (hu : 0 < updates (e.st n0).ctl.hist)
    (hi : ∀ id ref i, (id, ref) ∈ (e.st n0).ctl.list →
      ((e.st n0).ctl.heap ref).ident i = .absent ∨ ((e.st n0).ctl.heap ref).ident i = .done)
    (hlife : Life db (start true ns)) (hsen : ∀ m l, e.lab m = some (.ctl l) → SensibleC l) {y : Bool}
    (hsome : ∃ fr ∈ onWire xs, WireOn fr b y) (hagree : ∀ fr ∈ onWire xs, ∀ z, WireOn fr b z → z = y) :
    ∃ m, ∀ m', m ≤ m' → Sys.dead (e.st m') ∨ ShownAgain e x m' b.toNat fun v => boolState v "on".toList = some y :=
  shown_again hf hg h0 x hd hl hb hq hr hx ho ha hs hu hi hlife hsen (fun v v' h hv => by rw [restored_bool h]; exact hv)
    (C100_on_shown hf hg h0 hd hl hb hq hr hx ho hsome hagree)

/-- C122: likewise for the level. -/
theorem C122_level_after_restart_partial (hf : FairSys e) (hg : GoodFile ns) (h0 : e.st 0 = sysStart true ns) (x : FileAt) {n0 n : Nat}
    (hd : (e.st n0).ctl.disc = .done) {b : UInt8} {ref : Nat} (hl : (e.st n0).ctl.list.get b.toNat = some ref)
    (hb : AllApplied b (e.st n0).ctl) (hq : NoMoreRequests e n) (hr : NoMoreReads e n) {xs : List Session}
    (hx : sessions (connSteps e n) = xs.map Session.reads) (ho : ∀ x ∈ xs, x.Ok)
    (ha : (e.st n0).ctl.saver ≠ .absent) (hs : (e.st n0).ctl.saver ≠ .stuck) (hu : 0 < updates (e.st n0).ctl.hist)
    (hi : ∀ id ref i, (id, ref) ∈ (e.st n0).ctl.list →
      ((e.st n0).ctl.heap ref).ident i = .absent ∨ ((e.st n0).ctl.heap ref).ident i = .done)
    (hlife : Life db (start true ns)) (hsen : ∀ m l, e.lab m = some (.ctl l) → SensibleC l) {y : Nat}
    (hsome : ∃ fr ∈ onWire xs, WireLevel fr b y) (hagree : ∀ fr ∈ onWire xs, ∀ z, WireLevel fr b z → z = y) :
    ∃ m, ∀ m', m ≤ m' → Sys.dead (e.st m') ∨ ShownAgain e x m' b.toNat fun v => floatState v "level".toList = some (y : Rat) :=
  shown_again hf hg h0 x hd hl hb hq hr hx ho ha hs hu hi hlife hsen (fun v v' h hv => by rw [restored_float h]; exact hv)
    (C100_level_shown hf hg h0 hd hl hb hq hr hx ho hsome hagree)

/-- C122: and for every other state but those of an alarm, in terms of the reports the frames carry. -/
theorem C122_state_after_restart_partial (hf : FairSys e) (hg : GoodFile ns) (h0 : e.st 0 = sysStart true ns) (x : FileAt) {n0 n : Nat}
    (hd : (e.st n0).ctl.disc = .done) {b : UInt8} {ref : Nat} (hl : (e.st n0).ctl.list.get b.toNat = some ref)
    (hb : AllApplied b (e.st n0).ctl) (hq : NoMoreRequests e n) (hr : NoMoreReads e n) {xs : List Session}
    (hx : sessions (connSteps e n) = xs.map Session.reads) (ho : ∀ x ∈ xs, x.Ok)
    (ha : (e.st n0).ctl.saver ≠ .absent) (hs : (e.st n0).ctl.saver ≠ .stuck) (hu : 0 < updates (e.st n0).ctl.hist)
    (hi : ∀ id ref i, (id, ref) ∈ (e.st n0).ctl.list →
      ((e.st n0).ctl.heap ref).ident i = .absent ∨ ((e.st n0).ctl.heap ref).ident i = .done)
    (hlife : Life db (start true ns)) (hsen : ∀ m l, e.lab m = some (.ctl l) → SensibleC l)
    {key : List Char} (hk : key ≠ "alarm".toList) (hk' : key ≠ "alarmLastType".toList) {y : Rat}
    (hsome : ∃ fr ∈ onWire xs, ∃ r, IsReport fr b r ∧ saysFloat r key = some y)
    (hagree : ∀ fr ∈ onWire xs, ∀ r, IsReport fr b r → saysFloat r key = some y ∨ saysFloat r key = none) :
    ∃ m, ∀ m', m ≤ m' → Sys.dead (e.st m') ∨ ShownAgain e x m' b.toNat fun v => floatState v key = some y :=
  shown_again hf hg h0 x hd hl hb hq hr hx ho ha hs hu hi hlife hsen (fun v v' h hv => by rw [restored_float h]; exact hv)
    (C100_state_shown hf hg h0 hd hl hb hq hr hx ho hk hk' hsome hagree)

/-- C122: an alarm does not come back with a restart, once the wire has fallen silent. -/
theorem C122_no_alarm_after_restart_partial (hf : FairSys e) (hg : GoodFile ns) (h0 : e.st 0 = sysStart true ns) (x : FileAt) {n0 n : Nat}
    (hd : (e.st n0).ctl.disc = .done) {b : UInt8} {ref : Nat} (hl : (e.st n0).ctl.list.get b.toNat = some ref)
    (hb : AllApplied b (e.st n0).ctl) (hq : NoMoreRequests e n) (hr : NoMoreReads e n) {xs : List Session}
    (hx : sessions (connSteps e n) = xs.map Session.reads) (ho : ∀ x ∈ xs, x.Ok)
    (ha : (e.st n0).ctl.saver ≠ .absent) (hs : (e.st n0).ctl.saver ≠ .stuck) (hu : 0 < updates (e.st n0).ctl.hist)
    (hi : ∀ id ref i, (id, ref) ∈ (e.st n0).ctl.list →
      ((e.st n0).ctl.heap ref).ident i = .absent ∨ ((e.st n0).ctl.heap ref).ident i = .done)
    (hlife : Life db (start true ns)) (hsen : ∀ m l, e.lab m = some (.ctl l) → SensibleC l)
    (hfile : ∀ x ∈ ns, boolState x "alarm".toList ≠ some true) :
    ∃ m, ∀ m', m ≤ m' → Sys.dead (e.st m') ∨ ShownAgain e x m' b.toNat fun v => boolState v "alarm".toList ≠ some true :=
  shown_again hf hg h0 x hd hl hb hq hr hx ho ha hs hu hi hlife hsen (fun v v' h hv => by rw [restored_bool h]; exact hv)
    (C113_alarm_over_partial hf hg h0 hfile hd hl hb hq hr hx ho)

/-- C122: but its type is remembered. -/
theorem C122_last_type_after_restart_partial (hf : FairSys e) (hg : GoodFile ns) (h0 : e.st 0 = sysStart true ns) (x : FileAt) {n0 n : Nat}
    (hd : (e.st n0).ctl.disc = .done) {b : UInt8} {ref : Nat} (hl : (e.st n0).ctl.list.get b.toNat = some ref)
    (hb : AllApplied b (e.st n0).ctl) (hq : NoMoreRequests e n) (hr : NoMoreReads e n) {xs : List Session}
    (hx : sessions (connSteps e n) = xs.map Session.reads) (ho : ∀ x ∈ xs, x.Ok)
    (ha : (e.st n0).ctl.saver ≠ .absent) (hs : (e.st n0).ctl.saver ≠ .stuck) (hu : 0 < updates (e.st n0).ctl.hist)
    (hi : ∀ id ref i, (id, ref) ∈ (e.st n0).ctl.list →
      ((e.st n0).ctl.heap ref).ident i = .absent ∨ ((e.st n0).ctl.heap ref).ident i = .done)
    (hlife : Life db (start true ns)) (hsen : ∀ m l, e.lab m = some (.ctl l) → SensibleC l) {t : UInt8}
    (hsome : ∃ fr ∈ onWire xs, WireAlarm fr b t) (hagree : ∀ fr ∈ onWire xs, ∀ t', WireAlarm fr b t' → t' = t) :
    ∃ m, ∀ m', m ≤ m' → Sys.dead (e.st m') ∨
      ShownAgain e x m' b.toNat fun v => floatState v "alarmLastType".toList = some (t.toNat : Rat) :=
  shown_again hf hg h0 x hd hl hb hq hr hx ho ha hs hu hi hlife hsen (fun v v' h hv => by rw [restored_float h]; exact hv)
    (C113_last_type_shown hf hg h0 hd hl hb hq hr hx ho hsome hagree)

/-! ### An instance -/

/-- The port is opened, node 2 is found and identified and this is saved; then it says that it is on, and that is saved. -/
def exSavedSys : List SLabel :=
  [.conn (.connect true), .connected true] ++ identifiedRun.map .ctl ++ [.conn (.reader (.read ⟨exReport, true, 5⟩))] ++
    exWork.map .conn ++ [.ctl (.deliver 0), .ctl (.deliver 0), .ctl (.deliver 0)] ++ saveOnce.map .ctl

theorem identified_sensible : ∀ l ∈ identifiedRun, SensibleC l := by
  have hman : Spec.Decoded (.manufacturerSpecific demoMan) := ⟨0x72, 0x05, [0x00, 0x86, 0x00, 0x03, 0x00, 0x06], rfl⟩
  have hend : Spec.Decoded (.multiChannelEndpoints ⟨false, false, 2⟩) := ⟨0x60, 0x08, [0x00, 0x02], rfl⟩
  intro l hl
  simp [identifiedRun, discOne, d, demoIdent, saveOnce, go] at hl
  rcases hl with rfl | rfl | rfl | rfl | rfl | rfl | rfl | rfl | rfl | rfl | rfl | rfl | rfl | rfl | rfl | rfl <;>
    first | trivial | exact hman | exact hend | (show (2 : Nat) < 2 ^ 63; decide)

theorem saved_sensible : ∀ l, SLabel.ctl l ∈ exSavedSys → SensibleC l := by
  intro l hl
  simp only [exSavedSys, List.mem_append, List.mem_cons, List.mem_map, SLabel.ctl.injEq, reduceCtorEq, List.not_mem_nil,
    and_false, exists_false, or_false, false_or, exists_eq_right, saveOnce] at hl
  rcases hl with ((h | rfl | rfl | rfl) | h)
  · exact identified_sensible l h
  all_goals try trivial
  rcases h with rfl | rfl | rfl | rfl | rfl | rfl | rfl | rfl | rfl <;> trivial

/-- A fair execution that meets the hypotheses: at moment 54 node 2 is identified and that is in the file; at moment 55 the frame has
been read but not even cut out of the buffer; nothing more is read or requested. -/
example : ∃ e : Exec (sysStep .perIteration demoDB), FairSys e ∧ e.st 0 = sysStart true [] ∧ Life demoDB (start true []) ∧
    (∀ m l, e.lab m = some (.ctl l) → SensibleC l) ∧
    (e.st 54).ctl.disc = .done ∧ (e.st 54).ctl.list.get (2 : UInt8).toNat = some 0 ∧ AllApplied 2 (e.st 54).ctl ∧
    (e.st 54).ctl.saver = .idle ∧ updates (e.st 54).ctl.hist = 4 ∧
    (∀ id ref i, (id, ref) ∈ (e.st 54).ctl.list →
      ((e.st 54).ctl.heap ref).ident i = .absent ∨ ((e.st 54).ctl.heap ref).ident i = .done) ∧
    NoMoreRequests e 55 ∧ NoMoreReads e 55 ∧ boolState ((e.st 55).ctl.heap 0).node "on".toList = none ∧
    sessions (connSteps e 55) = [exSysSession, []].map Session.reads ∧ (∀ x ∈ [exSysSession, []], x.Ok) ∧
    (∃ fr ∈ onWire [exSysSession, []], WireOn fr 2 true) ∧ (∀ n, ¬ Sys.dead (e.st n)) := by
  have hv : (runSteps (sysStep .perIteration demoDB) (sysStart true []) exSavedSys).map (fun s =>
      restB s.conn && cRestB s.ctl && s.conn.crashed.isNone && s.ctl.crashed.isNone) = some true := by decide +kernel
  cases hr : runSteps (sysStep .perIteration demoDB) (sysStart true []) exSavedSys with
  | none => rw [hr] at hv; cases hv
  | some s =>
    have hr0 : runSteps (sysStep .perIteration demoDB) (sysStart true []) exSavedSys = some (sysTail s 0) := hr
    rw [hr] at hv
    simp only [Option.map_some, Option.some.injEq, Bool.and_eq_true, Option.isNone_iff_eq_none] at hv
    obtain ⟨⟨⟨v1, v2⟩, v3⟩, v4⟩ := hv
    let e0 := execFin (sysStep .perIteration demoDB) (sysStart true []) exSavedSys s hr none (by simp)
    have hst : e0.st exSavedSys.length = s := execFin_end _ _ (Nat.le_refl _)
    have hp := sys_parts (e := e0) (f := true) (ns := []) (by simp [e0, execFin, runSteps]) exSavedSys.length
    rw [hst] at hp
    let e := execTail (sysStep .perIteration demoDB) (sysStart true []) exSavedSys (sysTail s) (.ctl (.tick 1)) hr0 (sysTail_step v3 v4)
    have v : ∀ n (p : Sys → Bool), n < exSavedSys.length →
        (runSteps (sysStep .perIteration demoDB) (sysStart true []) (exSavedSys.take n)).map p = some true → p (e.st n) = true := by
      intro n p hn hp
      cases hr : runSteps (sysStep .perIteration demoDB) (sysStart true []) (exSavedSys.take n) with
      | none => rw [hr] at hp; cases hp
      | some t => rw [hr] at hp; rw [show e.st n = t from execTail_mid hr0 _ hn hr]; simpa using hp
    have hlab : ∀ m, 55 ≤ m → ∃ l, e.lab m = some l ∧ inert l = true := by
      intro m hm
      refine ⟨_, rfl, ?_⟩
      by_cases hlt : m < exSavedSys.length
      · have hall : ((exSavedSys.drop 55).all inert) = true := by decide +kernel
        rw [List.all_eq_true] at hall
        rw [if_pos hlt, List.getElem?_eq_getElem hlt, Option.getD_some]
        refine hall _ (List.mem_of_getElem? (i := m - 55) ?_)
        rw [List.getElem?_drop, show 55 + (m - 55) = m by omega, List.getElem?_eq_getElem hlt]
      · rw [if_neg hlt]; rfl
    have hdeadB : ∀ n, ¬ Sys.dead (e.st n) := by
      intro n hd
      have h1 := dead_stays (e := e) (n := n) (m := n + exSavedSys.length) (by omega) hd
      rw [show e.st (n + exSavedSys.length) = _ from execTail_end hr0 _ (by omega)] at h1
      rcases h1 with h1 | h1
      · exact h1 v3
      · exact h1 v4
    have h00 : e.st 0 = sysStart true [] := execTail_mid hr0 _ (by decide) rfl
    have v54 := v 54 (fun s => decide (s.ctl.list = [(2, 0)]) && decide ((s.ctl.heap 0).nIdent = 1) &&
      decide ((s.ctl.heap 0).ident 0 = .done) && decide (s.ctl.nHeap = 1)) (by decide) (by decide +kernel)
    simp only [Bool.and_eq_true, decide_eq_true_eq] at v54
    obtain ⟨⟨⟨a5, a6⟩, a7⟩, a8⟩ := v54
    refine ⟨e, sys_fair hr0 v3 v4 (quiet_of_restB ⟨_, hp.1⟩ v1) (cquiet_of_rest (cinv noFileGood hp.2) v2), h00, .first true, ?_, ?_, ?_,
      ?_, ?_, ?_, ?_, ?_, ?_, ?_, ?_, exSysSession_ok, ⟨exReport, by decide, ?_⟩, hdeadB⟩
    · intro m l hl
      have hl : some (if m < exSavedSys.length then exSavedSys[m]?.getD (.ctl (.tick 1)) else .ctl (.tick 1)) = some (SLabel.ctl l) := hl
      by_cases hlt : m < exSavedSys.length
      · rw [if_pos hlt, List.getElem?_eq_getElem hlt, Option.getD_some] at hl
        injection hl with hl
        exact saved_sensible l (hl ▸ List.getElem_mem hlt)
      · rw [if_neg hlt] at hl
        cases hl
        trivial
    · simpa using v 54 (fun s => decide (s.ctl.disc = .done)) (by decide) (by decide +kernel)
    · rw [a5]; rfl
    · intro k r hk
      have h1 : arrivals (e.st 54).ctl.hist = [] := by
        simpa using v 54 (fun s => decide (arrivals s.ctl.hist = [])) (by decide) (by decide +kernel)
      have := mem_arrivals.2 ⟨k, arrivalOf_mem hk⟩
      rw [h1] at this; cases this
    · simpa using v 54 (fun s => decide (s.ctl.saver = .idle)) (by decide) (by decide +kernel)
    · simpa using v 54 (fun s => decide (updates s.ctl.hist = 4)) (by decide) (by decide +kernel)
    · intro id ref i hl
      rw [a5] at hl
      simp only [List.mem_singleton, Prod.mk.injEq] at hl
      obtain ⟨-, rfl⟩ := hl
      by_cases hi : i = 0
      · subst hi; exact .inr a7
      · exact .inl (((cinv noFileGood (sys_parts h00 54).2).safe 0 (by omega)).wake.fresh i (by omega))
    · intro m hm w src hc
      obtain ⟨l, h1, h2⟩ := hlab m hm
      rw [h1] at hc; cases hc; cases h2
    · intro m hm
      obtain ⟨l, h1, h2⟩ := hlab m hm
      constructor
      · intro r hc; rw [h1] at hc; cases hc; cases h2
      · intro hc; rw [h1] at hc; cases hc; cases h2
    · simpa using v 55 (fun s => decide (boolState (s.ctl.heap 0).node "on".toList = none)) (by decide) (by decide +kernel)
    · rfl
    · exact .inl ⟨0xFF, ⟨0x00, 0x00, 0x03, [], ⟨0x09, 0x2A, rfl, rfl, by decide⟩, rfl, by decide⟩, rfl⟩

end Verif.Props
