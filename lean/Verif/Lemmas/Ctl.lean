import Verif.Lemmas.NodeState
import Verif.Model.Controller

/-
Lemmas about the controller machine.
-/

set_option linter.unusedSimpArgs false
set_option linter.unusedVariables false
set_option maxHeartbeats 4000000

namespace Verif.Lemmas.Ctl

open Verif.Go Verif.Model Verif.Lemmas.NodeM

/-! ### What a step of a node leaves alone -/

/-- Every endpoint refers back to the node. -/
def AllLinked (n : Node) : Prop := ∀ e ∈ n.endpoints.getD [], e.linked = true

theorem makeEndpoints_linked (n : Node) (k : Nat) : ∀ e ∈ n.makeEndpoints k, e.linked = true := by
  intro e he
  simp only [Node.makeEndpoints, List.mem_map] at he
  obtain ⟨i, -, rfl⟩ := he
  rfl

theorem link_linked (n : Node) : AllLinked n.link := by
  unfold AllLinked Node.link
  cases n.endpoints with
  | none => simp
  | some es => simp

structure Frame (s : NSt) (l : NLabel) (s' : NSt) : Prop where
  id : s'.node.id = s.node.id
  nIdent : s'.nIdent = s.nIdent + (if l = .identify then 1 else 0)
  hasConn : s'.node.hasConn = (s.node.hasConn || l = .setup)
  linked : AllLinked s.node → AllLinked s'.node

theorem frame_step {db : DB} {s s' : NSt} {l : NLabel} (h : nodeStep db s l = some s') : Frame s l s' := by
  node_step h
  all_goals constructor
  all_goals first
    | rfl
    | (simp; done)
    | (exact fun h => h)
    | (have c := (alarmOn_ok (by assumption)).1
       first
       | (simp [c.id, c.hasConn]; done)
       | (intro hl; unfold AllLinked at *; simp only [c.endpoints]; exact hl))
    | (have c := (alarmOff_ok (by assumption)).1
       first
       | (simp [c.id, c.hasConn]; done)
       | (intro hl; unfold AllLinked at *; simp only [c.endpoints]; exact hl))
    | (have c := applyState_core (by assumption)
       first
       | (simp [c.id, c.hasConn]; done)
       | (intro hl; unfold AllLinked at *; simp only [c.endpoints]; exact hl))
    | (simp [setManufacturer_fields]; done)
    | (intro hl; unfold AllLinked at *; simp only [setManufacturer_fields]; exact hl)
    | (intro hl; exact makeEndpoints_linked _ _)
    | (intro hl; unfold AllLinked; simp)

/-! ### Nodes that cannot panic -/

/-- A node that has its maps and is not identified before it is set up. -/
structure Safe (s : NSt) : Prop where
  mapB : s.node.stateBool.isSome = true
  mapF : s.node.stateFloat.isSome = true
  conn : s.node.hasConn = true ∨ s.nIdent = 0
  ok : s.crashed = none
  idInv : IdInv s
  wake : WakeInv s

theorem safe_step {db : DB} {s s' : NSt} {l : NLabel} (hi : Safe s) (h : nodeStep db s l = some s')
    (hl : l = .identify → s.node.hasConn = true) : Safe s' := by
  obtain ⟨m1, m2, m3, m4, m5, m6⟩ := hi
  have hf := frame_step h
  by_cases hc : s.node.hasConn = true
  · obtain ⟨⟨u1, u2, u3⟩, u4⟩ := usable_step ⟨m1, m2, hc⟩ m4 m5 m6 h
    exact ⟨u1, u2, .inl u3, u4, id_step m5 h, wake_step m6 h⟩
  · have h0 : s.nIdent = 0 := m3.resolve_left hc
    have i5 := id_step m5 h
    have i6 := wake_step m6 h
    cases l with
    | identify => exact absurd (hl rfl) hc
    | setup =>
      unfold nodeStep at h
      split at h
      · cases h
      injection h with h; subst h
      exact ⟨m1, m2, .inl rfl, m4, i5, i6⟩
    | ident i a =>
      unfold nodeStep at h
      split at h
      · cases h
      simp only [identStep, m6.fresh i (by omega)] at h
      cases h
    | report r =>
      have hn : s'.nIdent = 0 := by rw [hf.nIdent, h0]; rfl
      unfold nodeStep at h
      split at h
      · cases h
      simp only at h
      split at h
      · injection h with h
        have key : s'.node.stateBool.isSome = true ∧ s'.node.stateFloat.isSome = true ∧ s'.crashed = none := by
          rw [← h]
          unfold reportStep
          repeat' split
          all_goals first
            | exact ⟨m1, m2, m4⟩
            | (exfalso; obtain ⟨n, h'⟩ := alarmOn_some m1 m2 (by assumption); simp_all; done)
            | (have c := (alarmOn_ok (by assumption)).1
               exact ⟨by simp [c.mapB, m1], by simp [c.mapF, m2], m4⟩)
            | (have c := applyState_core (by assumption)
               exact ⟨by simp [c.mapB, m1], by simp [c.mapF, m2], m4⟩)
            | (exfalso; obtain ⟨n, h'⟩ := applyState_some m1 m2 r; simp_all; done)
        exact ⟨key.1, key.2.1, .inr hn, key.2.2, i5, i6⟩
      · cases h
    | proc j =>
      have hn : s'.nIdent = 0 := by rw [hf.nIdent, h0]; rfl
      have key : s'.node.stateBool.isSome = true ∧ s'.node.stateFloat.isSome = true ∧ s'.crashed = none := by
        unfold nodeStep at h
        split at h
        · cases h
        simp only [procStep] at h
        repeat' split at h
        all_goals try injection h with h
        all_goals try subst h
        all_goals first
          | (cases h; done)
          | exact ⟨m1, m2, m4⟩
          | (exfalso; obtain ⟨n, h'⟩ := alarmOff_some m1 m2; simp_all; done)
          | (have c := (alarmOff_ok (by assumption)).1
             exact ⟨by simp [NSt.push, c.mapB, m1], by simp [NSt.push, c.mapF, m2], m4⟩)
          | (exfalso; obtain ⟨c, hc1, hc2⟩ := m6.closing j (by assumption); simp_all; done)
      exact ⟨key.1, key.2.1, .inr hn, key.2.2, i5, i6⟩

theorem safe_new (id : Int) : Safe (NSt.start (newNode id)) :=
  ⟨rfl, rfl, .inr rfl, rfl, idInv_start ⟨by simp [newNode], by simp [newNode]⟩, wakeInv_start _⟩

/-- A node in a file that has its maps. -/
structure Sound (n : Node) : Prop where
  mapB : n.stateBool.isSome = true
  mapF : n.stateFloat.isSome = true
  fresh : n.protocolInfo = none ∧ n.statesOk = false ∧ n.identified = false

theorem safe_loaded {n : Node} (h : Sound n) : Safe (NSt.start { n.link with hasConn := true }) := by
  obtain ⟨h1, h2, h3, h4, h5⟩ := h
  exact ⟨h1, h2, .inl rfl, rfl, idInv_start ⟨by simp [Node.link, h4], by simp [Node.link, h5]⟩, wakeInv_start _⟩

/-! ### Pushing -/

section
variable (s : CSt) (e : Event) (ref : Nat) (n : NSt)

@[simp] theorem push_heap : (s.push e).heap = s.heap := rfl
@[simp] theorem push_nHeap : (s.push e).nHeap = s.nHeap := rfl
@[simp] theorem push_list : (s.push e).list = s.list := rfl
@[simp] theorem push_hasFile : (s.push e).hasFile = s.hasFile := rfl
@[simp] theorem push_disc : (s.push e).disc = s.disc := rfl
@[simp] theorem push_nDeliv : (s.push e).nDeliv = s.nDeliv := rfl
@[simp] theorem push_deliv : (s.push e).deliv = s.deliv := rfl
@[simp] theorem push_saver : (s.push e).saver = s.saver := rfl
@[simp] theorem push_now : (s.push e).now = s.now := rfl
@[simp] theorem push_crashed : (s.push e).crashed = s.crashed := rfl

@[simp] theorem put_heap : (s.put ref n).heap = updN s.heap ref n := by
  unfold CSt.put; simp only; split <;> rfl
@[simp] theorem put_nHeap : (s.put ref n).nHeap = s.nHeap := by
  unfold CSt.put; simp only; split <;> rfl
@[simp] theorem put_list : (s.put ref n).list = s.list := by
  unfold CSt.put; simp only; split <;> rfl
@[simp] theorem put_hasFile : (s.put ref n).hasFile = s.hasFile := by
  unfold CSt.put; simp only; split <;> rfl
@[simp] theorem put_disc : (s.put ref n).disc = s.disc := by
  unfold CSt.put; simp only; split <;> rfl
@[simp] theorem put_nDeliv : (s.put ref n).nDeliv = s.nDeliv := by
  unfold CSt.put; simp only; split <;> rfl
@[simp] theorem put_deliv : (s.put ref n).deliv = s.deliv := by
  unfold CSt.put; simp only; split <;> rfl
@[simp] theorem put_saver : (s.put ref n).saver = s.saver := by
  unfold CSt.put; simp only; split <;> rfl
@[simp] theorem put_now : (s.put ref n).now = s.now := by
  unfold CSt.put; simp only; split <;> rfl
@[simp] theorem put_crashed : (s.put ref n).crashed = n.crashed := by
  unfold CSt.put; simp only; split <;> rfl

end

/-! ### Runs -/

/-- The controller right after the nodes in the file were loaded. -/
def start (hasFile : Bool) (ns : List Node) : CSt := (newController hasFile).loadNodes ns

/-- Reached by a controller whose file holds the nodes `ns`. -/
def CReach (db : DB) (hasFile : Bool) (ns : List Node) (s : CSt) : Prop :=
  ∃ ls, cRun db (start hasFile ns) ls = some s

theorem cRun_append {db : DB} {s : CSt} {a b : List CLabel} :
    cRun db s (a ++ b) = (cRun db s a).bind fun s => cRun db s b := by
  induction a generalizing s with
  | nil => rfl
  | cons l a ih =>
    simp only [List.cons_append, cRun]
    cases cStep db s l with
    | none => rfl
    | some s' => exact ih

theorem creach_step {db : DB} {f : Bool} {ns : List Node} {s s' : CSt} {l : CLabel} (h : CReach db f ns s)
    (hs : cStep db s l = some s') : CReach db f ns s' := by
  obtain ⟨ls, h⟩ := h
  exact ⟨ls ++ [l], by rw [cRun_append, h]; simp [cRun, hs]⟩

theorem creach_run {db : DB} {f : Bool} {ns : List Node} {s s' : CSt} {ls : List CLabel} (h : CReach db f ns s)
    (hs : cRun db s ls = some s') : CReach db f ns s' := by
  obtain ⟨ls0, h⟩ := h
  exact ⟨ls0 ++ ls, by rw [cRun_append, h]; exact hs⟩

/-- Induction over runs. -/
theorem crun_induct {db : DB} {P : CSt → Prop}
    (hstep : ∀ s l s', P s → cStep db s l = some s' → P s') :
    ∀ ls s0 s, P s0 → cRun db s0 ls = some s → P s := by
  intro ls
  induction ls with
  | nil => intro s0 s hp h; cases h; exact hp
  | cons l ls ih =>
    intro s0 s hp h
    simp only [cRun] at h
    cases hl : cStep db s0 l with
    | none => rw [hl] at h; cases h
    | some s1 => rw [hl] at h; exact ih s1 s (hstep s0 l s1 hp hl) h

/-- Case analysis on the step taken; steps of nodes become hypotheses. -/
syntax "ctl_step " ident : tactic
macro_rules
  | `(tactic| ctl_step $h) => `(tactic| (
      unfold cStep at $h:ident
      split at $h:ident
      · cases $h:ident
      split at $h:ident <;>
        try simp only [discStep, deliverStep, saverStep] at $h:ident
      all_goals repeat' split at $h:ident
      all_goals try (rw [Option.map_eq_some_iff] at $h:ident; obtain ⟨n', hn', $h:ident⟩ := $h:ident)
      all_goals try injection $h:ident with $h:ident
      all_goals try subst $h:ident
      all_goals try (cases $h:ident; done)))

/-! ### Structure -/

/-- The node a discovery is dealing with. -/
def DiscAt.ref : DiscAt → Option Nat
  | .add r _ | .locked r _ | .writing r _ | .unlock r _ | .announce r _ | .setup r _ | .start r _ => some r
  | _ => none

/-- The node that is not yet in the list. -/
def DiscAt.adding : DiscAt → Option Nat
  | .add r _ | .locked r _ | .writing r _ => some r
  | _ => none

/-- The node that may not be set up yet. -/
def DiscAt.raw : DiscAt → Option Nat
  | .add r _ | .locked r _ | .writing r _ | .unlock r _ | .announce r _ | .setup r _ => some r
  | _ => none

/-- The ids still in the loop. -/
def DiscAt.todo : DiscAt → List Int
  | .loop t | .add _ t | .locked _ t | .writing _ t | .unlock _ t | .announce _ t | .setup _ t | .start _ t => t
  | _ => []

/-- The reply has not been handled yet. -/
def DiscAt.before : DiscAt → Bool
  | .absent | .wait => true
  | _ => false

/-- The node a delivery is dealing with. -/
def DelivAt.ref : DelivAt → Option Nat
  | .process r _ => some r
  | _ => none

structure CInv (s : CSt) : Prop where
  safe : ∀ r, r < s.nHeap → Safe (s.heap r)
  linked : ∀ r, r < s.nHeap → AllLinked (s.heap r).node
  list : ∀ id r, s.list.get id = some r → r < s.nHeap ∧ (s.heap r).node.id = id
  known : ∀ r, r < s.nHeap → DiscAt.adding s.disc = some r ∨ s.list.get (s.heap r).node.id = some r
  adding : ∀ r, DiscAt.adding s.disc = some r → s.list.get (s.heap r).node.id = none
  ref : ∀ r, DiscAt.ref s.disc = some r → r < s.nHeap
  dref : ∀ k r, DelivAt.ref (s.deliv k) = some r → r < s.nHeap
  conn : ∀ r, r < s.nHeap → DiscAt.raw s.disc = some r ∨ (s.heap r).node.hasConn = true
  one : ∀ r, r < s.nHeap → (s.heap r).nIdent ≤ 1
  zero : ∀ r, r < s.nHeap → DiscAt.before s.disc = true ∨ (s.heap r).node.id ∈ DiscAt.todo s.disc ∨
    DiscAt.ref s.disc = some r → (s.heap r).nIdent = 0
  nodup : (DiscAt.todo s.disc).Nodup
  refNew : ∀ r, DiscAt.ref s.disc = some r → (s.heap r).node.id ∉ DiscAt.todo s.disc
  fresh : ∀ k, s.nDeliv ≤ k → s.deliv k = .absent
  crash : s.crashed = none ∨ s.crashed = some .mapRace

theorem activeIds_nodup (bm : List Bool) : (activeIds bm).Nodup := by
  unfold activeIds
  refine List.Pairwise.map (R := fun p q => p.2 ≠ q.2) _ ?_ (List.Pairwise.filter _ ?_)
  · intro a b h; omega
  · have h := List.nodup_range' (s := 0) (n := bm.length) (step := 1)
    have e : bm.zipIdx.map Prod.snd = List.range' 0 bm.length := by simp [List.zipIdx_map_snd]
    rw [← e] at h
    exact List.pairwise_map.1 h

theorem start_new (id : Int) : (NSt.start (newNode id)).node.id = id ∧ (NSt.start (newNode id)).nIdent = 0 ∧
    AllLinked (NSt.start (newNode id)).node := ⟨rfl, rfl, by intro e he; cases he⟩

theorem get_put (m : GoMap Int Nat) (k k' : Int) (v : Nat) :
    (listPut m k v).get k' = if k' = k then some v else m.get k' := get_set m k k' v

theorem cinv_step {db : DB} {s s' : CSt} {l : CLabel} (hi : CInv s) (h : cStep db s l = some s') : CInv s' := by
  obtain ⟨k1, k2, k3, k4, k5, k6, k7, k8, k9, k10, k11, k12, k13, k14⟩ := hi
  ctl_step h
  all_goals try have f := frame_step (by assumption)
  all_goals try have sf := fun hs hl => safe_step hs (by assumption) hl
  all_goals try obtain ⟨f1, f2, f3, f4⟩ := f
  all_goals try have q1 := congrArg DiscAt.ref (by assumption : CSt.disc s = _)
  all_goals try have q2 := congrArg DiscAt.adding (by assumption : CSt.disc s = _)
  all_goals try have q3 := congrArg DiscAt.raw (by assumption : CSt.disc s = _)
  all_goals try have q4 := congrArg DiscAt.todo (by assumption : CSt.disc s = _)
  all_goals try have q5 := congrArg DiscAt.before (by assumption : CSt.disc s = _)
  all_goals try have q6 := congrArg DelivAt.ref (by assumption : CSt.deliv s _ = _)
  all_goals try simp only [DiscAt.ref, DiscAt.adding, DiscAt.raw, DiscAt.todo, DiscAt.before, DelivAt.ref] at q1 q2 q3 q4 q5 q6
  all_goals constructor
  all_goals try simp only [put_heap, put_nHeap, put_list, put_disc, put_nDeliv, put_deliv, put_crashed, push_heap, push_nHeap, push_list, push_disc, push_nDeliv, push_deliv, push_crashed, DiscAt.ref, DiscAt.adding, DiscAt.raw, DiscAt.todo, DiscAt.before, DelivAt.ref]
  all_goals first
    | assumption
    | grind [updN, get_put, DiscAt.ref, DiscAt.adding, DiscAt.raw, DiscAt.todo, DiscAt.before, DelivAt.ref, activeIds_nodup, safe_new, start_new, Safe]

/-- What a file must hold for the controller to be started with it: every node has its maps, no two nodes
have the same id. -/
structure GoodFile (ns : List Node) : Prop where
  sound : ∀ n ∈ ns, Sound n
  nodup : (ns.map Node.id).Nodup

theorem cinv_load {s : CSt} {n : Node} (hi : CInv s) (hd : s.disc = .absent) (hn : Sound n)
    (hf : s.list.get n.id = none) : CInv (s.loadNode n) := by
  obtain ⟨k1, k2, k3, k4, k5, k6, k7, k8, k9, k10, k11, k12, k13, k14⟩ := hi
  have hs := safe_loaded hn
  have hl : AllLinked (NSt.start { n.link with hasConn := true }).node := link_linked n
  have e1 : (NSt.start { n.link with hasConn := true }).node.id = n.id := rfl
  have e2 : (NSt.start { n.link with hasConn := true }).nIdent = 0 := rfl
  have e3 : (NSt.start { n.link with hasConn := true }).node.hasConn = true := rfl
  have e4 : n.link.id = n.id := rfl
  unfold CSt.loadNode
  simp only
  generalize NSt.start { n.link with hasConn := true } = x at *
  constructor
  all_goals try simp only [push_heap, push_nHeap, push_list, push_disc, push_nDeliv, push_deliv, push_crashed, hd, DiscAt.ref, DiscAt.adding, DiscAt.raw, DiscAt.todo, DiscAt.before, e4]
  all_goals simp only [hd, DiscAt.ref, DiscAt.adding, DiscAt.raw, DiscAt.todo, DiscAt.before] at *
  all_goals first
    | assumption
    | grind [updN, get_put]

theorem cinv_loads {ns : List Node} : ∀ {s : CSt}, CInv s → s.disc = .absent → GoodFile ns →
    (∀ n ∈ ns, s.list.get n.id = none) → CInv (s.loadNodes ns) ∧ (s.loadNodes ns).disc = .absent := by
  induction ns with
  | nil => intro s hi hd _ _; exact ⟨hi, hd⟩
  | cons n ns ih =>
    intro s hi hd hg hf
    obtain ⟨g1, g2⟩ := hg
    simp only [List.map_cons, List.nodup_cons] at g2
    refine ih (cinv_load hi hd (g1 n (by simp)) (hf n (by simp))) ?_ ⟨fun m hm => g1 m (by simp [hm]), g2.2⟩ ?_
    · unfold CSt.loadNode; simp [hd]
    · intro m hm
      unfold CSt.loadNode
      simp only [push_list, get_put, Node.link]
      rw [if_neg]
      · exact hf m (by simp [hm])
      · intro h; exact g2.1 (List.mem_map.2 ⟨m, hm, h⟩)

theorem cinv_start {f : Bool} {ns : List Node} (hg : GoodFile ns) : CInv (start f ns) := by
  refine (cinv_loads ?_ rfl hg ?_).1
  · constructor <;> simp [newController, DiscAt.ref, DiscAt.adding, DiscAt.raw, DiscAt.todo, DiscAt.before, DelivAt.ref, GoMap.get]
  · intro n _; rfl

theorem cinv {db : DB} {f : Bool} {ns : List Node} {s : CSt} (hg : GoodFile ns) (h : CReach db f ns s) :
    CInv s := by
  obtain ⟨ls, h⟩ := h
  exact crun_induct (fun _ _ _ => cinv_step) ls _ _ (cinv_start hg) h

end Verif.Lemmas.Ctl
