import Verif.Lemmas.CtlMore
import Verif.Props.Node

/-
C43 – C47, C66, C70, C72 – C75: the running controller.
-/

set_option linter.unusedSimpArgs false
set_option linter.unusedVariables false
set_option maxHeartbeats 4000000

namespace Verif.Props

open Verif.Go Verif.Model Verif.Spec Verif.Lemmas.NodeM Verif.Lemmas.Ctl

/-! ## Example runs -/

/-- A step of the discovery. -/
def d : CLabel := .disc .nothing

/-- Discovery of one new node, the node with id 2, from start to end. -/
def discOne : List CLabel := [.startDisc, .disc (.nodes [true, true])] ++ List.replicate 9 d

/-- "on" and "off" as binary switch reports. -/
def repOn : Report := .switchBinaryV1 true true
def repOff : Report := .switchBinaryV1 false true

/-- A report from node 2 that is delivered at once; it is the delivery with number `k`. -/
def deliverOne (k : Nat) (r : Report) : List CLabel := [.arrive 2 r, .deliver k, .deliver k, .deliver k]

/-- A node as it is read from a file. -/
def fileNode (id : Int) : Node := newNode id

theorem noFileGood : GoodFile [] := ⟨by simp, by simp⟩

theorem fileGood : GoodFile [fileNode 2] :=
  ⟨by intro n hn; simp at hn; subst hn; exact ⟨rfl, rfl, rfl, rfl, rfl⟩, by simp⟩

/-! ## C43 -/

/-- C43: queue and history are always those of a first-in-first-out queue with room for ten events: an
event is dropped only when exactly ten are waiting. -/
theorem C43_fifo (db : DB) (f : Bool) (ns : List Node) (s : CSt) (h : CReach db f ns s) :
    Fifo 10 s.hist s.queue := (qInv h).fifo

/-- C43: the accepted events are, in order, those the user has received followed by those that wait. -/
theorem C43_order (db : DB) (f : Bool) (ns : List Node) (s : CSt) (h : CReach db f ns s) :
    accepted s.hist = taken s.hist ++ s.queue := fifo_order (qInv h).fifo

/-- C43: never more than ten events wait. -/
theorem C43_bounded (db : DB) (f : Bool) (ns : List Node) (s : CSt) (h : CReach db f ns s) :
    s.queue.length ≤ 10 := (qInv h).len

/-- C43: pushing never blocks: whether a goroutine can go on does not depend on what is in the queue,
unless it is the user who waits for an event. -/
theorem C43_never_blocks (db : DB) (s : CSt) (q : List Event) (l : CLabel) (hl : l ≠ .take) :
    (cStep db { s with queue := q } l).isSome = (cStep db s l).isSome := by
  unfold cStep
  split
  · rfl
  cases l with
  | take => exact absurd rfl hl
  | disc a =>
    simp only [discStep]
    repeat' split
    all_goals simp_all
  | deliver k =>
    simp only [deliverStep]
    repeat' split
    all_goals simp_all
  | saver op =>
    simp only [saverStep]
    repeat' split
    all_goals simp_all
  | node r l => cases l <;> (simp only; try split) <;> simp_all
  | raceDeliver k => simp only; repeat' split; all_goals simp_all
  | racePulse r j => simp only; repeat' split; all_goals simp_all
  | startDisc => simp only; repeat' split; all_goals simp_all
  | startSaver => simp only; repeat' split; all_goals simp_all
  | arrive id r => rfl
  | tick d => rfl

/-- Eleven updates without a reader: ten wait, the eleventh is lost, the oldest is the discovery. -/
example : ∃ s, CReach demoDB false [] s ∧ s.queue.length = 10 ∧ s.queue.head? = some (.discovered 2) ∧
    updates s.hist = 11 ∧ (accepted s.hist).length = 10 := by
  have h : ((cRun demoDB (start false []) (discOne ++ (List.range 11).flatMap fun k => deliverOne k repOn)).map
      fun s => (s.queue.length, s.queue.head?, updates s.hist, (accepted s.hist).length)) =
        some (10, some (.discovered 2), 11, 10) := by decide +kernel
  rw [Option.map_eq_some_iff] at h
  obtain ⟨s, h1, h2⟩ := h
  simp only [Prod.mk.injEq] at h2
  exact ⟨s, ⟨_, h1⟩, h2.1, h2.2.1, h2.2.2.1, h2.2.2.2⟩

/-! ## C44 -/

/-- C44: when a discovery is over, the known nodes are still known; a node that was not known is known
now iff its id is active in the reply; it is a new object, made by `New` with that id. -/
theorem C44_registers_active_nodes (db : DB) (f : Bool) (ns : List Node) (hg : GoodFile ns) (s s1 s2 : CSt)
    (hr : CReach db f ns s) (hw : s.disc = .wait) (bm : List Bool) (ls : List CLabel)
    (h1 : cStep db s (.disc (.nodes bm)) = some s1) (h2 : cRun db s1 ls = some s2) (hd : s2.disc = .done) :
    (∀ id r, s.list.get id = some r → s2.list.get id = some r) ∧
    (∀ id, s.list.get id = none → ((s2.list.get id).isSome = true ↔ Active bm id)) ∧
    (∀ id r, s.list.get id = none → s2.list.get id = some r →
      s.nHeap ≤ r ∧ (s2.heap r).node.id = id ∧ RunOf db (newNode id) (appliedTo r s2.hist) (s2.heap r)) := by
  obtain ⟨d1, d2⟩ := dinv_reply hw h1
  have hr1 := creach_step hr h1
  have hr2 := creach_run hr1 h2
  have d := dinv_run hg ls s1 s2 hr1 d1 h2
  have c2 := cinv hg hr2
  obtain ⟨b, bl⟩ := bornInv' hg hr2
  have hlen := (bornInv' hg hr).2
  refine ⟨d.keep, ?_, ?_⟩
  · intro id hb
    rw [d.new id hb, ← active_mem]
    have : unadded s2 = [] := by unfold unadded; rw [hd]; rfl
    rw [this]; simp
  · intro id r hb hl
    have hge := d.newRef id r hb hl
    obtain ⟨c1, c3⟩ := c2.list id r hl
    refine ⟨hge, c3, ?_⟩
    obtain ⟨n, hn, hrun⟩ := b.born r c1
    rcases hn with ⟨-, i, rfl⟩ | ⟨m, hm, -⟩
    · have : (s2.heap r).node.id = i := by
        obtain ⟨ls', e, -⟩ := hrun
        exact run_induct (db := db) (P := fun x => x.node.id = i)
          (fun x l y hx hs => (frame_step hs).id.trans hx) ls' _ _ rfl e
      rw [← c3, this]; exact hrun
    · have := (List.getElem?_eq_some_iff.1 hm).1
      omega

/-- C44: the new nodes are announced once each, in the order of their ids, and nothing else is. -/
theorem C44_announced_once_in_order (db : DB) (f : Bool) (ns : List Node) (hg : GoodFile ns) (s s1 s2 : CSt)
    (hr : CReach db f ns s) (hw : s.disc = .wait) (bm : List Bool) (ls : List CLabel)
    (h1 : cStep db s (.disc (.nodes bm)) = some s1) (h2 : cRun db s1 ls = some s2) (hd : s2.disc = .done) :
    ∃ new : List Int, announced s2.hist = announced s.hist ++ new ∧ new.Pairwise (· < ·) ∧
      ∀ id, id ∈ new ↔ Active bm id ∧ s.list.get id = none := by
  obtain ⟨d1, d2⟩ := dinv_reply hw h1
  have d := dinv_run hg ls s1 s2 (creach_step hr h1) d1 h2
  obtain ⟨pre, e1, e2⟩ := d.ann
  have : unannounced s2 = [] := by unfold unannounced; rw [hd]; rfl
  rw [this, List.append_nil] at e1
  subst e1
  refine ⟨_, e2, (activeIds_sorted bm).filter _, fun id => ?_⟩
  rw [List.mem_filter, active_mem, Option.isNone_iff_eq_none]

/-- C44: a step of the discovery leaves the data of the nodes that are set up unchanged. -/
theorem C44_known_nodes_unchanged (db : DB) (f : Bool) (ns : List Node) (hg : GoodFile ns) (s s' : CSt)
    (hr : CReach db f ns s) (a : DiscAnswer) (h : cStep db s (.disc a) = some s') (r : Nat) (hlt : r < s.nHeap)
    (hc : (s.heap r).node.hasConn = true) : (s'.heap r).node = (s.heap r).node := by
  unfold cStep at h
  split at h
  · cases h
  simp only [discStep] at h
  repeat' split at h
  all_goals try (rw [Option.map_eq_some_iff] at h; obtain ⟨n', hn', h⟩ := h)
  all_goals try injection h with h
  all_goals try subst h
  all_goals try (cases h; done)
  all_goals first
    | rfl
    | (simp only [updN]; rw [if_neg (by omega)])
    | (simp only [put_heap, updN]
       split
       · rename_i e
         subst e
         unfold nodeStep at hn'
         split at hn'
         · cases hn'
         · injection hn' with hn'
           subst hn'
           first | rfl | (simp only [← hc])
       · rfl)

/-- C44: no reply, or a reply of another kind, changes nothing. -/
theorem C44_no_reply_no_change (db : DB) (s s' : CSt) (hw : s.disc = .wait) (a : DiscAnswer)
    (ha : ∀ bm, a ≠ .nodes bm) (h : cStep db s (.disc a) = some s') : s' = { s with disc := .done } := by
  unfold cStep at h
  split at h
  · cases h
  simp only [discStep, hw] at h
  cases a with
  | nodes bm => exact absurd rfl (ha bm)
  | nothing => cases h; rfl
  | other => cases h; rfl

/-- C44: after the reply the discovery ends within `8 · n + 1` steps of its own, `n` being the number of
active ids, and until then a step is always possible. -/
theorem C44_discovery_ends (db : DB) (f : Bool) (ns : List Node) (hg : GoodFile ns) (s s1 s2 : CSt)
    (hr : CReach db f ns s) (hw : s.disc = .wait) (bm : List Bool) (ls : List CLabel)
    (h1 : cStep db s (.disc (.nodes bm)) = some s1) (h2 : cRun db s1 ls = some s2) :
    (ls.countP isDisc) ≤ 8 * (activeIds bm).length + 1 ∧
    (s2.disc = .done ∨ s2.crashed = some .mapRace ∨ ∀ a, ∃ s3, cStep db s2 (.disc a) = some s3) := by
  obtain ⟨d1, d2⟩ := dinv_reply hw h1
  have hr1 := creach_step hr h1
  have d := dinv_run hg ls s1 s2 hr1 d1 h2
  have c := cinv hg (creach_run hr1 h2)
  constructor
  · have := disc_bound ls s1 s2 d1.before h2
    rw [d2] at this
    simp only [discLeft, discSteps] at this
    omega
  · rcases c.crash with h0 | h0
    · by_cases hd : s2.disc = .done
      · exact .inl hd
      · refine .inr (.inr fun a => disc_enabled c h0 ?_ hd a)
        intro e
        have := d.before
        rw [e] at this; cases this
    · exact .inr (.inl h0)

/-- A discovery of nodes 2 and 4 by a controller that knows node 2 from its file. -/
example : ∃ s s1 s2 ls, CReach demoDB true [fileNode 2] s ∧ s.disc = .wait ∧
    cStep demoDB s (.disc (.nodes [true, true, false, true])) = some s1 ∧ cRun demoDB s1 ls = some s2 ∧
    s2.disc = .done ∧ s2.list.get 2 = some 0 ∧ s2.list.get 4 = some 1 ∧ s2.list.get 3 = none ∧
    announced s2.hist = [2, 4] := by
  have h : ((cRun demoDB (start true [fileNode 2]) [.startDisc]).bind fun s =>
      (cStep demoDB s (.disc (.nodes [true, true, false, true]))).bind fun s1 =>
      (cRun demoDB s1 (List.replicate 11 d)).map fun s2 =>
        decide (s.disc = .wait ∧ s2.disc = .done ∧ s2.list.get 2 = some 0 ∧ s2.list.get 4 = some 1 ∧
          s2.list.get 3 = none ∧ announced s2.hist = [2, 4])) = some true := by decide +kernel
  rw [Option.bind_eq_some_iff] at h
  obtain ⟨s, h1, h⟩ := h
  rw [Option.bind_eq_some_iff] at h
  obtain ⟨s1, h2, h⟩ := h
  rw [Option.map_eq_some_iff] at h
  obtain ⟨s2, h3, h⟩ := h
  simp only [decide_eq_true_eq] at h
  exact ⟨s, s1, s2, _, ⟨_, h1⟩, h.1, h2, h3, h.2⟩

/-! ## C45 -/

/-- C45: a step of the delivery of report `k` changes at most the node whose id is that of the sender. -/
theorem C45_only_the_sender (db : DB) (f : Bool) (ns : List Node) (hg : GoodFile ns) (s s' : CSt)
    (hr : CReach db f ns s) (k : Nat) (h : cStep db s (.deliver k) = some s') (ref : Nat)
    (hn : ∀ id r, arrivalOf k s.hist = some (id, r) → (s.heap ref).node.id ≠ id.toNat) :
    s'.heap ref = s.heap ref := by
  have ha := arrInv hg hr
  unfold cStep at h
  split at h
  · cases h
  simp only [deliverStep] at h
  repeat' split at h
  all_goals try (rw [Option.map_eq_some_iff] at h; obtain ⟨n', hn', h⟩ := h)
  all_goals try injection h with h
  all_goals try subst h
  all_goals try (cases h; done)
  all_goals try rfl
  rename_i ref' r hd
  obtain ⟨id, e1, e2⟩ := ha.job k ref' r (by rw [hd]; rfl)
  have hne : ref ≠ ref' := by rintro rfl; exact hn id r e1 e2
  simp [updN, hne]

/-- C45: what reaches the node is the report that arrived. -/
theorem C45_applies_what_arrived (db : DB) (f : Bool) (ns : List Node) (hg : GoodFile ns) (s : CSt)
    (hr : CReach db f ns s) (k ref : Nat) (r : Report) (hd : s.deliv k = .process ref r) :
    ∃ id : UInt8, arrivalOf k s.hist = some (id, r) ∧ (s.heap ref).node.id = id.toNat :=
  (arrInv hg hr).job k ref r (by rw [hd]; rfl)

/-- C45: a report from an unknown node changes nothing and its delivery ends. -/
theorem C45_unknown_ignored (db : DB) (s s' : CSt) (k : Nat) (id : UInt8) (r : Report) (hd : s.deliv k = .look id r)
    (hu : s.list.get id.toNat = none) (hw : s.disc.writes = false) (h : cStep db s (.deliver k) = some s') :
    s' = { s with deliv := updN s.deliv k .done } := by
  unfold cStep at h
  split at h
  · cases h
  simp only [deliverStep, hd, hw, hu] at h
  cases h; rfl

/-- C45: no report is applied twice. -/
theorem C45_applied_at_most_once (db : DB) (f : Bool) (ns : List Node) (hg : GoodFile ns) (s : CSt)
    (hr : CReach db f ns s) (k : Nat) : timesApplied k s.hist ≤ 1 := (onceInv hg hr).most k

/-- How node `ref` began: as it was in the file, or as `New` makes it. -/
def beginsAs (ns : List Node) (ref : Nat) (n : Node) : Prop :=
  (∃ m, ns[ref]? = some m ∧ n.stateBool = m.stateBool ∧ n.stateFloat = m.stateFloat ∧ n.id = m.id) ∨
  (ns.length ≤ ref ∧ n.stateBool = some [] ∧ n.stateFloat = some [])

/-- C45: the states of every node are those of the last reports applied to that very node. -/
theorem C45_state_from_own_reports (db : DB) (f : Bool) (ns : List Node) (hg : GoodFile ns) (s : CSt)
    (hr : CReach db f ns s) (ref : Nat) (hlt : ref < s.nHeap) : ∃ n, beginsAs ns ref n ∧
      (∀ k, k ≠ "alarm".toList → boolState (s.heap ref).node k =
        lastSaid (fun r => saysBool r k) (boolState n k) (appliedTo ref s.hist)) ∧
      (∀ k, k ≠ "alarm".toList → k ≠ "alarmLastType".toList → floatState (s.heap ref).node k =
        lastSaid (fun r => saysFloat r k) (floatState n k) (appliedTo ref s.hist)) := by
  obtain ⟨n, hn, ls, e1, e2⟩ := (bornInv hg hr).born ref hlt
  have hok := ((cinv hg hr).safe ref hlt).ok
  have e3 : reportsOf ls = appliedTo ref s.hist := by
    rw [← e2]; unfold reportsOf
    congr 1
  refine ⟨n, ?_, fun k hk => ?_, fun k hk hk' => ?_⟩
  · rcases hn with ⟨h1, id, rfl⟩ | ⟨m, hm, rfl⟩
    · exact .inr ⟨h1, rfl, rfl⟩
    · exact .inl ⟨m, hm, rfl, rfl, rfl⟩
  · rw [C52_bool_state_is_last_report db n ls _ e1 hok k hk, e3]
  · rw [C52_float_state_is_last_report db n ls _ e1 hok k hk hk', e3]

/-- Two nodes, a report for one of them and a report from an unknown node. -/
example : ∃ s, CReach demoDB true [fileNode 2, fileNode 5] s ∧ appliedTo 0 s.hist = [] ∧
    appliedTo 1 s.hist = [repOn] ∧ boolState (s.heap 1).node "on".toList = some true ∧
    boolState (s.heap 0).node "on".toList = none ∧ s.deliv 1 = .done := by
  have h : ((cRun demoDB (start true [fileNode 2, fileNode 5])
      [.arrive 5 repOn, .arrive 9 repOff, .deliver 0, .deliver 1, .deliver 0, .deliver 1, .deliver 0]).map fun s =>
        decide (appliedTo 0 s.hist = [] ∧ appliedTo 1 s.hist = [repOn] ∧
          boolState (s.heap 1).node "on".toList = some true ∧ boolState (s.heap 0).node "on".toList = none ∧
          s.deliv 1 = .done)) = some true := by decide +kernel
  rw [Option.map_eq_some_iff] at h
  obtain ⟨s, h1, h2⟩ := h
  exact ⟨s, ⟨_, h1⟩, of_decide_eq_true h2⟩

/-! ## C46 -/

/-- C46 is false: "on" and then "off" arrive from a node, and the node is shown as on. -/
theorem C46_violated_reordered : ∃ s, CReach demoDB false [] s ∧ arrivedFrom 2 s.hist = [repOn, repOff] ∧
    (∀ k, k < s.nDeliv → s.deliv k = .done) ∧ s.crashed = none ∧
    boolState (s.heap 0).node "on".toList = some true := by
  have h : ((cRun demoDB (start false [])
      (discOne ++ [.arrive 2 repOn, .arrive 2 repOff, .deliver 1, .deliver 1, .deliver 1, .deliver 0, .deliver 0, .deliver 0])).map
        fun s => decide (arrivedFrom 2 s.hist = [repOn, repOff] ∧ s.nDeliv = 2 ∧ s.deliv 0 = .done ∧
          s.deliv 1 = .done ∧ s.crashed.isNone = true ∧ boolState (s.heap 0).node "on".toList = some true)) = some true := by
    decide +kernel
  rw [Option.map_eq_some_iff] at h
  obtain ⟨s, h1, h2⟩ := h
  obtain ⟨a, b, c, e, g, i⟩ := of_decide_eq_true h2
  refine ⟨s, ⟨_, h1⟩, a, ?_, by simpa using g, i⟩
  intro k hk
  rw [b] at hk
  match k, hk with
  | 0, _ => exact c
  | 1, _ => exact e

/-- C46 as far as it holds: if, after the discovery, reports arrive only when the deliveries of the
earlier ones are over, the reports from a known node are applied to it in the order of their arrival: all
of them, but perhaps the last, whose delivery may still be going on. Missing: any other schedule. -/
theorem C46_in_order_partial (db : DB) (f : Bool) (ns : List Node) (hg : GoodFile ns) (s s' : CSt)
    (hr : CReach db f ns s) (hd : s.disc = .done) (id : UInt8) (ref : Nat) (hl : s.list.get id.toNat = some ref)
    (hq : ∀ k, k < s.nDeliv → s.deliv k = .done) (ls : List CLabel) (ho : InOrder db s ls)
    (h : cRun db s ls = some s') :
    ∃ new last, arrivedFrom id s'.hist = arrivedFrom id s.hist ++ new ++ last ∧
      appliedTo ref s'.hist = appliedTo ref s.hist ++ new ∧ last.length ≤ 1 ∧
      ((∀ k, k < s'.nDeliv → s'.deliv k = .done) → last = []) := by
  have h0 : OrdInv id ref (arrivedFrom id s.hist) (appliedTo ref s.hist) s := by
    refine ⟨hd, hl, fun k hk => hq k (by omega), fun k hk => ?_, [], by simp, ?_⟩
    · rw [hq k (by omega)]; simp
    · split
      · simp
      · rw [hq _ (by omega)]; simp [DelivAt.pending]
  obtain ⟨a1, a2, a3, a4, X, a5, a6⟩ := ord_run hg ls s s' hr h0 ho h
  have hp : ∀ p : DelivAt, (DelivAt.pending id ref p).length ≤ 1 := by
    intro p; cases p <;> simp only [DelivAt.pending] <;> (try split) <;> simp
  generalize hP : (if s'.nDeliv = 0 then [] else DelivAt.pending id ref (s'.deliv (s'.nDeliv - 1))) = P at a6
  have hP1 : P.length ≤ 1 := by rw [← hP]; split <;> simp [hp]
  have mono : ∃ Y, appliedTo ref s'.hist = appliedTo ref s.hist ++ Y := by
    clear h0 a1 a2 a3 a4 a5 a6 hP ho hr hd hl hq
    induction ls generalizing s with
    | nil => cases h; exact ⟨[], by simp⟩
    | cons l ls ih =>
      simp only [cRun] at h
      cases hs : cStep db s l with
      | none => rw [hs] at h; cases h
      | some s1 =>
        rw [hs] at h
        obtain ⟨Y, hY⟩ := ih s1 h
        have : ∃ Z, appliedTo ref s1.hist = appliedTo ref s.hist ++ Z := by
          clear ih h hY
          ctl_step hs
          all_goals first
            | (simp only [applied_put, appliedTo]; split
               · exact ⟨_, rfl⟩
               · exact ⟨[], by simp⟩)
            | exact ⟨[], by simp [appliedTo]⟩
        obtain ⟨Z, hZ⟩ := this
        exact ⟨Z ++ Y, by rw [hY, hZ, List.append_assoc]⟩
  obtain ⟨Y, hY⟩ := mono
  rw [hY, List.append_assoc, List.append_cancel_left_eq] at a6
  refine ⟨Y, P, by rw [a5, a6, List.append_assoc], hY, hP1, fun hall => ?_⟩
  rw [← hP]
  split
  · rfl
  · rw [hall _ (by omega)]; rfl

/-- On, then off, one after the other. -/
example : ∃ s s' ls, CReach demoDB false [] s ∧ s.disc = .done ∧ s.list.get (2 : UInt8).toNat = some 0 ∧
    (∀ k, k < s.nDeliv → s.deliv k = .done) ∧ InOrder demoDB s ls ∧ cRun demoDB s ls = some s' ∧
    appliedTo 0 s'.hist = [repOn, repOff] := by
  have h : ((cRun demoDB (start false []) discOne).bind fun s =>
      (cRun demoDB s (deliverOne 0 repOn ++ deliverOne 1 repOff)).map fun s' =>
        decide (s.disc = .done ∧ s.list.get (2 : UInt8).toNat = some 0 ∧ s.nDeliv = 0 ∧
          appliedTo 0 s'.hist = [repOn, repOff])) = some true := by decide +kernel
  rw [Option.bind_eq_some_iff] at h
  obtain ⟨s, h1, h⟩ := h
  rw [Option.map_eq_some_iff] at h
  obtain ⟨s', h2, h⟩ := h
  obtain ⟨a, b, c, e⟩ := of_decide_eq_true h
  refine ⟨s, s', _, ⟨_, h1⟩, a, b, by omega, ?_, h2, e⟩
  obtain ⟨a, ha, hb⟩ : ∃ a, cRun demoDB (start false []) (discOne ++ deliverOne 0 repOn) = some a ∧ a.nDeliv = 1 ∧ a.deliv 0 = .done := by
    have h : ((cRun demoDB (start false []) (discOne ++ deliverOne 0 repOn)).map fun s =>
      decide (s.nDeliv = 1 ∧ s.deliv 0 = .done)) = some true := by decide +kernel
    rw [Option.map_eq_some_iff] at h
    obtain ⟨s, h1, h2⟩ := h
    exact ⟨s, h1, of_decide_eq_true h2⟩
  rw [cRun_append, h1] at ha
  simp only [Option.bind_some, deliverOne, cRun, Option.bind_eq_some_iff] at ha
  obtain ⟨b1, p1, b2, p2, b3, p3, b4, p4, p5⟩ := ha
  cases p5
  simp only [deliverOne, List.cons_append, List.nil_append, InOrder]
  refine ⟨by omega, ?_⟩
  intro x1 y1; rw [p1] at y1; cases y1
  refine ⟨by simp, ?_⟩
  intro x1 y1; rw [p2] at y1; cases y1
  refine ⟨by simp, ?_⟩
  intro x1 y1; rw [p3] at y1; cases y1
  refine ⟨by simp, ?_⟩
  intro x1 y1; rw [p4] at y1; cases y1
  refine ⟨?_, ?_⟩
  · intro _ _ _ k hk
    obtain rfl : k = 0 := by omega
    exact hb.2
  · intro _ _
    simp

/-! ## C47 -/

/-- C47: every save follows a trigger by ten seconds or more without another trigger or save in between,
triggers are caused by updates, and there are never more saves than updates. -/
theorem C47_saves_are_caused (db : DB) (f : Bool) (ns : List Node) (s : CSt) (hr : CReach db f ns s) :
    SavesOk s.hist ∧ saves s.hist ≤ triggers s.hist ∧ triggers s.hist + s.nTrig = updates s.hist := by
  have h := trigInv hr
  refine ⟨h.ok, ?_, h.count.symm⟩
  have := h.fewer
  split at this <;> omega

/-- C47: a save begins as soon as ten seconds have gone by since the last trigger: then the saver can
take no other step but to begin a save or to receive a further trigger. -/
theorem C47_save_when_quiet (db : DB) (ns : List Node) (s : CSt) (hr : CReach db true ns s) (t : Nat)
    (hl : lastTrigger s.hist = some t) (ht : t + 10000 ≤ s.now) (h0 : s.crashed = none) :
    ∃ s', cStep db s (.saver .timer) = some s' ∧ s'.hist = .save s.now :: s.hist := by
  have hi := saveInv hr
  have hw := hi.last rfl t hl
  refine ⟨{ s with saver := .cmp, hist := .save s.now :: s.hist }, ?_, rfl⟩
  unfold cStep
  rw [if_neg (show ¬ s.crashed.isSome = true by simp [h0])]
  simp only [saverStep, hw, Model.quiet, if_pos ht, if_pos hi.file]

/-- C47: at rest everything is saved: if there is a file, the saver runs and has not got stuck, and the
saver cannot take a step even after another ten seconds, then a save began after the last update and the
last save has written the file. Missing: a saver that got stuck or a crash (see `C47_violated_saver_stuck`
and `C73_violated_race_with_save`). -/
theorem C47_saved_at_rest_partial (db : DB) (ns : List Node) (s : CSt) (hr : CReach db true ns s)
    (h0 : s.crashed = none) (ha : s.saver ≠ .absent) (hs : s.saver ≠ .stuck)
    (hq : ∀ op, cStep db { s with now := s.now + 10000 } (.saver op) = none) :
    unsaved s.hist = false ∧ saving s.hist = false ∧ lastTrigger s.hist = none := by
  have hi := saveInv hr
  have ht := trigInv hr
  have hfile := hi.file
  have q1 := hq .trigger
  have q2 := hq .timer
  have q3 := hq .go
  unfold cStep at q1 q2 q3
  rw [h0] at q1 q2 q3
  simp only [Option.isSome_none, Bool.false_eq_true, if_false, saverStep] at q1 q2 q3
  have hidle : s.saver = .idle := by
    cases hv : s.saver with
    | idle => rfl
    | absent => exact absurd hv ha
    | stuck => exact absurd hv hs
    | window t0 =>
      have := (ht.window t0 (by rw [hv]; rfl)).2
      simp only [hv, Model.quiet, hfile, if_true] at q2
      rw [if_pos (by omega)] at q2; cases q2
    | cmp => simp only [hv] at q3; split at q3 <;> cases q3
    | cmpNodes todo => cases todo <;> simp [hv] at q3
    | copy => simp [hv] at q3
    | iter => simp only [hv] at q3; split at q3 <;> cases q3
    | enc todo => cases todo <;> simp [hv] at q3
    | write => simp [hv] at q3
  have hz : s.nTrig = 0 := by
    simp only [hidle] at q1
    split at q1
    · cases q1
    · omega
  refine ⟨?_, ?_, ?_⟩
  · cases hu : unsaved s.hist with
    | false => rfl
    | true =>
      rcases hi.pending rfl hu with h | h
      · omega
      · rw [hidle] at h; cases h
  · rw [hi.busy, hidle]; rfl
  · cases hu : lastTrigger s.hist with
    | none => rfl
    | some t => have := hi.last rfl t hu; rw [hidle] at this; cases this

/-- C47: rest is reached: after the discovery, in a run without updates, the saver takes at most
`saverLeft s` steps, a number that depends only on the state at the beginning, and it does not get stuck. -/
theorem C47_rest_is_reached_partial (db : DB) (f : Bool) (ns : List Node) (s s' : CSt) (hr : CReach db f ns s)
    (hd : s.disc = .done) (ha : s.saver ≠ .absent) (hs : s.saver ≠ .stuck) (ls : List CLabel)
    (h : cRun db s ls = some s') (hu : updates s'.hist = updates s.hist) :
    (ls.countP isSaver) ≤ saverLeft s ∧ s'.saver ≠ .stuck ∧ s'.saver ≠ .absent := by
  obtain ⟨-, -, a3, -, a5, a6⟩ := left_run ls s s' hd ha h
  have := a6 hu
  simp only [saverSteps] at this
  exact ⟨by omega, a5 hs, a3⟩

/-- An update of node 2 is saved after ten seconds. -/
example : ∃ s, CReach demoDB true [] s ∧ updates s.hist = 1 ∧ unsaved s.hist = false ∧ saving s.hist = false ∧
    saves s.hist = 1 ∧ s.saver = .idle ∧ s.crashed = none ∧ ∀ op, cStep demoDB { s with now := s.now + 10000 } (.saver op) = none := by
  have h : ((cRun demoDB (start true []) (discOne ++ deliverOne 0 repOn ++
      [.startSaver, .saver .trigger, .tick 10000, .saver .timer, .saver .differ, .saver .go, .saver .go, .saver .go, .saver .go, .saver .go])).map
        fun s => decide (updates s.hist = 1 ∧ unsaved s.hist = false ∧ saving s.hist = false ∧ saves s.hist = 1 ∧
          s.saver = .idle ∧ s.crashed.isNone = true ∧ s.nTrig = 0)) = some true := by decide +kernel
  rw [Option.map_eq_some_iff] at h
  obtain ⟨s, h1, h2⟩ := h
  obtain ⟨a, b, c, e, g, i, j⟩ := of_decide_eq_true h2
  have hn : s.crashed = none := by simpa using i
  refine ⟨s, ⟨_, h1⟩, a, b, c, e, g, hn, fun op => ?_⟩
  unfold cStep
  rw [hn]
  cases op <;> simp [saverStep, g, j]

/-- A list with node 2 in it while node 3 is being added: an update of node 2 is to be saved when the
discovery holds the lock of the list. -/
def stuckRun : List CLabel :=
  [.startDisc, .startSaver] ++ deliverOne 0 repOn ++ [.saver .trigger, .tick 10000, .saver .timer, .saver .differ,
    .disc (.nodes [true, true, true]), d, d, d, d, .saver .go]

/-- C47 is false: the saver copies the list while the lock is held and waits for ever; whatever happens
afterwards, nothing is ever saved again. -/
theorem C47_violated_saver_stuck : ∃ s, CReach demoDB true [fileNode 2] s ∧ s.crashed = none ∧
    updates s.hist = 1 ∧ saving s.hist = true ∧
    ∀ ls s', cRun demoDB s ls = some s' → s'.saver = .stuck ∧ saving s'.hist = true := by
  have h : ((cRun demoDB (start true [fileNode 2]) stuckRun).map fun s =>
      decide (s.crashed.isNone = true ∧ s.saver = .stuck ∧ updates s.hist = 1 ∧ saving s.hist = true)) = some true := by
    decide +kernel
  rw [Option.map_eq_some_iff] at h
  obtain ⟨s, h1, h2⟩ := h
  obtain ⟨a, b, c, e⟩ := of_decide_eq_true h2
  refine ⟨s, ⟨_, h1⟩, by simpa using a, c, e, fun ls s' h => ?_⟩
  have hs := (stuck_run ls s s' h).1 b
  refine ⟨hs, ?_⟩
  rw [(saveInv (creach_run ⟨_, h1⟩ h)).busy, hs]; rfl

/-- What the stream of updates below keeps true. -/
structure Stream (i : Nat) (s : CSt) : Prop where
  reach : CReach demoDB true [] s
  ok : s.crashed = none
  disc : s.disc = .done
  list : s.list.get 2 = some 0
  n : s.nDeliv = i
  trig : s.nTrig = 0
  saver : s.saver = .idle ∨ ∃ t, s.saver = .window t
  updates : updates s.hist = i
  saves : saves s.hist = 0
  now : s.now = 9000 * i
  node : (s.heap 0).crashed = none ∧ (s.heap 0).lock = none ∧ (s.heap 0).node.stateBool.isSome = true ∧
    (s.heap 0).node.hasConn = true

theorem stream_start : ∃ s, Stream 0 s := by
  have h : ((cRun demoDB (start true []) (discOne ++ [.startSaver])).map fun s =>
      decide (s.crashed.isNone = true ∧ s.disc = .done ∧ s.list.get 2 = some 0 ∧ s.nDeliv = 0 ∧ s.nTrig = 0 ∧
        s.saver = .idle ∧ Spec.updates s.hist = 0 ∧ Spec.saves s.hist = 0 ∧ s.now = 0 ∧
        (s.heap 0).crashed.isNone = true ∧ (s.heap 0).lock = none ∧ (s.heap 0).node.stateBool.isSome = true ∧
        (s.heap 0).node.hasConn = true)) = some true := by decide +kernel
  rw [Option.map_eq_some_iff] at h
  obtain ⟨s, h1, h2⟩ := h
  obtain ⟨a, b, c, e, g, i, j, k, l, m, o, p, q⟩ := of_decide_eq_true h2
  exact ⟨s, ⟨_, h1⟩, by simpa using a, b, c, e, g, .inl i, j, k, l, by simpa using m, o, p, q⟩

theorem stream_next {i : Nat} {s : CSt} (h : Stream i s) : ∃ s', Stream (i + 1) s' := by
  obtain ⟨h1, h2, h3, h4, h5, h6, h7, h8, h9, h10, h11, h12, h13, h14⟩ := h
  obtain ⟨m, hm⟩ := Option.isSome_iff_exists.1 h13
  have key : ∃ s', cRun demoDB s (deliverOne i repOn ++ [.saver .trigger, .tick 9000]) = some s' ∧
      s'.crashed = none ∧ s'.disc = .done ∧ s'.list.get 2 = some 0 ∧ s'.nDeliv = i + 1 ∧ s'.nTrig = 0 ∧
      (s'.saver = .idle ∨ ∃ t, s'.saver = .window t) ∧ Spec.updates s'.hist = i + 1 ∧ Spec.saves s'.hist = 0 ∧
      s'.now = 9000 * (i + 1) ∧ (s'.heap 0).crashed = none ∧ (s'.heap 0).lock = none ∧
      (s'.heap 0).node.stateBool.isSome = true ∧ (s'.heap 0).node.hasConn = true := by
    let n' : NSt := { (s.heap 0).push with node := { (s.heap 0).node with stateBool := some (m.set kOn true) } }
    let s1 : CSt := { s with nDeliv := s.nDeliv + 1, deliv := updN s.deliv s.nDeliv (.call 2 repOn)
                             hist := .arrived s.nDeliv 2 repOn :: s.hist }
    let s2 : CSt := { s1 with deliv := updN s1.deliv i (.look 2 repOn) }
    let s3 : CSt := { s2 with deliv := updN s2.deliv i (.process 0 repOn) }
    let s4 : CSt := { ({ s3 with hist := .applied i 0 repOn :: s3.hist }.put 0 n') with deliv := updN s3.deliv i .done }
    let s5 : CSt := { s4 with nTrig := s4.nTrig - 1, saver := .window s4.now, hist := .trigger s4.now :: s4.hist }
    let s6 : CSt := { s5 with now := s5.now + 9000 }
    have hpu : ∀ t : CSt, t.heap 0 = s.heap 0 → t.put 0 n' =
        ({ t with heap := updN t.heap 0 n', crashed := n'.crashed }).push (.updated n'.node.id) := by
      intro t ht
      unfold CSt.put
      simp only
      rw [if_pos]
      refine ⟨?_, h14⟩
      rw [ht]
      simp [nodePushes, n', NSt.push]
    have hput := hpu { s3 with hist := .applied i 0 repOn :: s3.hist } rfl
    have hc4 : s4.crashed = none := by
      show (CSt.put _ 0 n').crashed = none
      rw [put_crashed]; exact h11
    have ht4 : s4.nTrig = 1 := by
      show (CSt.put _ 0 n').nTrig = 1
      rw [hput]; simp only [CSt.push, s3, s2, s1, h6]
    have hs4 : s4.saver = s.saver := put_saver ..
    have hn4 : s4.now = s.now := put_now ..
    have hh4 : s4.heap 0 = n' := by
      show (CSt.put _ 0 n').heap 0 = n'
      rw [put_heap]; simp [updN]
    have hu4 : Spec.updates s4.hist = i + 1 ∧ Spec.saves s4.hist = 0 := by
      show Spec.updates (CSt.put _ 0 n').hist = _ ∧ Spec.saves (CSt.put _ 0 n').hist = _
      rw [hput]
      simp [CSt.push, s3, s2, s1, Spec.updates, Spec.saves, h8, h9]
    have e1 : cStep demoDB s (.arrive 2 repOn) = some s1 := by
      unfold cStep; rw [if_neg (show ¬ s.crashed.isSome = true by simp [h2])]
    have e2 : cStep demoDB s1 (.deliver i) = some s2 := by
      unfold cStep
      have : s1.deliv i = .call 2 repOn := by simp [s1, updN, h5]
      rw [show s1.crashed = none from h2]
      simp only [Option.isSome_none, Bool.false_eq_true, if_false, deliverStep, this]
      rw [show s1.disc.locks = false by show s.disc.locks = false; rw [h3]; rfl]
      rfl
    have e3 : cStep demoDB s2 (.deliver i) = some s3 := by
      unfold cStep
      have : s2.deliv i = .look 2 repOn := by simp [s2, updN]
      have hl : s2.list.get ((2 : UInt8).toNat : Int) = some 0 := h4
      rw [show s2.crashed = none from h2]
      simp only [Option.isSome_none, Bool.false_eq_true, if_false, deliverStep, this, hl]
      rw [if_neg]
      show ¬ (s.disc.writes = true ∧ s.list ≠ []); rw [h3]; simp [DiscAt.writes]
    have e4 : cStep demoDB s3 (.deliver i) = some s4 := by
      unfold cStep
      have : s3.deliv i = .process 0 repOn := by simp [s3, updN]
      have hn : nodeStep demoDB (s3.heap 0) (.report repOn) = some n' := by
        show nodeStep demoDB (s.heap 0) (.report repOn) = some n'
        unfold nodeStep
        rw [h11]
        simp only [Option.isSome_none, Bool.false_eq_true, if_false, h12, if_true]
        simp only [reportStep, repOn, Node.applyState, Node.setBool, mapPut, hm]
        rfl
      rw [show s3.crashed = none from h2]
      simp only [Option.isSome_none, Bool.false_eq_true, if_false, deliverStep, this, hn]
      rfl
    have e5 : cStep demoDB s4 (.saver .trigger) = some s5 := by
      unfold cStep
      rw [if_neg (show ¬ s4.crashed.isSome = true by simp [hc4])]
      have hlt : 0 < s4.nTrig := by omega
      simp only [saverStep, hs4]
      rcases h7 with h7 | ⟨t, h7⟩ <;> rw [h7] <;> simp only [if_pos hlt] <;> rfl
    have e6 : cStep demoDB s5 (.tick 9000) = some s6 := by
      unfold cStep
      rw [if_neg (show ¬ s5.crashed.isSome = true by show ¬ s4.crashed.isSome = true; simp [hc4])]
    refine ⟨s6, ?_, hc4, ?_, ?_, ?_, ?_, .inr ⟨_, rfl⟩, hu4.1, hu4.2, ?_, ?_, ?_, ?_, ?_⟩
    · simp only [deliverOne, List.cons_append, List.nil_append, cRun, e1, e2, e3, e4, e5, e6, Option.bind_some]
    · show (CSt.put _ 0 n').disc = _; rw [put_disc]; exact h3
    · show (CSt.put _ 0 n').list.get 2 = _; rw [put_list]; exact h4
    · show (CSt.put _ 0 n').nDeliv = _; rw [put_nDeliv]; simp [s3, s2, s1, h5]
    · show s4.nTrig - 1 = 0; rw [ht4]
    · show s4.now + 9000 = _; rw [hn4, h10]; omega
    · show (s4.heap 0).crashed = none; rw [hh4]; exact h11
    · show (s4.heap 0).lock = none; rw [hh4]; exact h12
    · show (s4.heap 0).node.stateBool.isSome = true; rw [hh4]; rfl
    · show (s4.heap 0).node.hasConn = true; rw [hh4]; exact h14
  obtain ⟨s', e, rest⟩ := key
  obtain ⟨a, b, c, e1, g, i1, j, k, l, m1, o, p, q⟩ := rest
  exact ⟨s', creach_run h1 e, a, b, c, e1, g, i1, j, k, l, m1, o, p, q⟩

/-- C47: a stream of updates nine seconds apart is never saved, however long it lasts. -/
theorem C47_stream_postpones_save (n : Nat) : ∃ s, CReach demoDB true [] s ∧ updates s.hist = n ∧
    saves s.hist = 0 ∧ s.now = 9000 * n := by
  have : ∃ s, Stream n s := by
    induction n with
    | zero => exact stream_start
    | succ n ih => obtain ⟨s, h⟩ := ih; exact stream_next h
  obtain ⟨s, h⟩ := this
  exact ⟨s, h.reach, h.updates, h.saves, h.now⟩

/-! ## C66 -/

/-- C66: every endpoint of a node in the list refers back to the node, at any time. -/
theorem C66_endpoints_linked (db : DB) (f : Bool) (ns : List Node) (hg : GoodFile ns) (s : CSt)
    (hr : CReach db f ns s) (id : Int) (ref : Nat) (hl : s.list.get id = some ref) :
    ∀ es, (s.heap ref).node.endpoints = some es → ∀ e ∈ es, e.linked = true := by
  have c := cinv hg hr
  have := c.linked ref (c.list id ref hl).1
  intro es he e hm
  exact this e (by rw [he]; exact hm)

/-- An endpoint that came out of a file without its link. -/
def fileNodeEp : Node := { fileNode 2 with endpoints := some [{ id := 1, classes := some [], stateBool := some [], stateFloat := some [], linked := false }] }

example : GoodFile [fileNodeEp] ∧ ((start true [fileNodeEp]).heap 0).node.endpoints.map (fun es => es.map (·.linked)) = some [true] ∧
    (start true [fileNodeEp]).list.get 2 = some 0 :=
  ⟨⟨by intro n hn; simp at hn; subst hn; exact ⟨rfl, rfl, rfl, rfl, rfl⟩, by simp⟩, by decide +kernel, by decide +kernel⟩

/-! ## C70 -/

/-- C70: whatever arrives and whatever the stick answers, the only panic of a controller is that of
concurrent accesses to a map. -/
theorem C70_controller_panics_only_by_race (db : DB) (f : Bool) (ns : List Node) (hg : GoodFile ns) (s : CSt)
    (hr : CReach db f ns s) : s.crashed = none ∨ s.crashed = some .mapRace := (cinv hg hr).crash

/-! ## C72 -/

/-- C72 is false: a report that arrives while a node is being added is never delivered. -/
theorem C72_violated_stuck : ∃ s, CReach demoDB false [fileNode 2] s ∧ s.crashed = none ∧
    arrivalOf 0 s.hist = some (2, repOn) ∧ s.list.get 2 = some 0 ∧
    ∀ ls s', cRun demoDB s ls = some s' → s'.deliv 0 = .stuck ∧ timesApplied 0 s'.hist = 0 := by
  have h : ((cRun demoDB (start false [fileNode 2])
      [.startDisc, .disc (.nodes [true, false, true]), .arrive 2 repOn, d, d, .deliver 0]).map fun s =>
      decide (s.crashed.isNone = true ∧ arrivalOf 0 s.hist = some (2, repOn) ∧ s.list.get 2 = some 0 ∧
        s.deliv 0 = .stuck ∧ s.nDeliv = 1)) = some true := by decide +kernel
  rw [Option.map_eq_some_iff] at h
  obtain ⟨s, h1, h2⟩ := h
  obtain ⟨a, b, c, e, g⟩ := of_decide_eq_true h2
  refine ⟨s, ⟨_, h1⟩, by simpa using a, b, c, fun ls s' h => ?_⟩
  have hs := (stuck_run ls s s' h).2 0 e (by omega)
  exact ⟨hs, (onceInv fileGood (creach_run ⟨_, h1⟩ h)).zero 0 (by rw [hs]; simp)⟩

/-- C72 is false: a report that arrives while a node is being added can crash the program. -/
theorem C72_violated_race : ∃ s, CReach demoDB false [fileNode 2] s ∧ s.crashed = some .mapRace := by
  have h : ((cRun demoDB (start false [fileNode 2])
      [.startDisc, .disc (.nodes [true, false, true]), .arrive 2 repOn, .deliver 0, d, d, d, .deliver 0]).map fun s =>
      s.crashed == some .mapRace) = some true := by decide +kernel
  rw [Option.map_eq_some_iff] at h
  obtain ⟨s, h1, h2⟩ := h
  exact ⟨s, ⟨_, h1⟩, by simpa using h2⟩

/-- C72 as far as it holds: while no node is being added, a delivery finds the node and goes on to
process the report. Missing: deliveries during `Add`. -/
theorem C72_delivered_partial (db : DB) (s : CSt) (k : Nat) (id : UInt8) (r : Report) (ref : Nat)
    (h0 : s.crashed = none) (hl : s.disc.locks = false) (hd : s.deliv k = .call id r)
    (hg : s.list.get id.toNat = some ref) :
    ∃ s1 s2, cStep db s (.deliver k) = some s1 ∧ cStep db s1 (.deliver k) = some s2 ∧
      s2 = { s with deliv := updN s.deliv k (.process ref r) } := by
  have hw : s.disc.writes = false := by
    cases hx : s.disc <;> rw [hx] at hl <;> first | rfl | cases hl
  refine ⟨{ s with deliv := updN s.deliv k (.look id r) }, _, ?_, ?_, rfl⟩
  · unfold cStep
    rw [h0]
    simp [deliverStep, hd, hl, h0]
  · have e : updN (updN s.deliv k (.look id r)) k (.process ref r) = updN s.deliv k (.process ref r) := by
      funext j; simp only [updN]; split <;> rfl
    have e2 : updN s.deliv k (.look id r) k = .look id r := by simp [updN]
    unfold cStep
    simp only [h0, Option.isSome_none, Bool.false_eq_true, if_false, deliverStep, e2, hw, hg, e, false_and]

/-- C72: and then the report is applied as soon as the node is not locked. -/
theorem C72_applied (db : DB) (f : Bool) (ns : List Node) (hgf : GoodFile ns) (s : CSt) (hr : CReach db f ns s)
    (k ref : Nat) (r : Report) (h0 : s.crashed = none) (hd : s.deliv k = .process ref r) (hl : (s.heap ref).lock = none) :
    ∃ s', cStep db s (.deliver k) = some s' ∧ appliedTo ref s'.hist = appliedTo ref s.hist ++ [r] ∧
      s'.crashed = none := by
  have c := cinv hgf hr
  have hlt := c.dref k ref (by rw [hd]; rfl)
  have hn : nodeStep db (s.heap ref) (.report r) = some (reportStep (s.heap ref) r) := by
    unfold nodeStep
    rw [(c.safe ref hlt).ok]
    simp [hl]
  have hs : cStep db s (.deliver k) = some { ({ s with hist := .applied k ref r :: s.hist }.put ref (reportStep (s.heap ref) r)) with deliv := updN s.deliv k .done } := by
    unfold cStep
    rw [h0]
    simp only [Option.isSome_none, Bool.false_eq_true, if_false, deliverStep, hd, hn]
    rfl
  refine ⟨_, hs, by simp [appliedTo], ?_⟩
  have := (cinv_step c hs).safe ref (by simpa using hlt)
  simpa [updN] using this.ok

/-- C72: while no node is being added and nothing is being saved, no step crashes the program. -/
theorem C72_no_crash_partial (db : DB) (f : Bool) (ns : List Node) (hg : GoodFile ns) (s s' : CSt)
    (hr : CReach db f ns s) (h0 : s.crashed = none) (hd : s.disc.writes = false) (hs : s.saver.reads = none)
    (l : CLabel) (h : cStep db s l = some s') : s'.crashed = none := by
  rcases crash_cause (cinv hg hr) h0 h with h | ⟨-, h | h⟩
  · exact h
  · rw [hd] at h; cases h
  · rw [hs] at h; cases h

/-! ## C73 -/

/-- C73 is false: a report that arrives while its node is being saved crashes the program. -/
theorem C73_violated_race_with_save : ∃ s, CReach demoDB true [fileNode 2] s ∧ s.crashed = some .mapRace ∧
    s.disc = .absent := by
  have h : ((cRun demoDB (start true [fileNode 2])
      ([.startSaver] ++ deliverOne 0 repOn ++ [.saver .trigger, .tick 10000, .saver .timer, .saver .differ, .saver .go, .saver .go,
        .arrive 2 repOff, .deliver 1, .deliver 1, .raceDeliver 1])).map fun s =>
      decide (s.crashed.isSome = true ∧ s.disc = .absent)) = some true := by decide +kernel
  rw [Option.map_eq_some_iff] at h
  obtain ⟨s, h1, h2⟩ := h
  obtain ⟨a, b⟩ := of_decide_eq_true h2
  refine ⟨s, ⟨_, h1⟩, ?_, b⟩
  rcases (cinv fileGood ⟨_, h1⟩).crash with h | h
  · rw [h] at a; cases a
  · exact h

/-- C73 as far as it holds: without a configuration file the program crashes only if a report arrives
while a node is being added. -/
theorem C73_no_file_no_crash_partial (db : DB) (ns : List Node) (hg : GoodFile ns) (s s' : CSt)
    (hr : CReach db false ns s) (h0 : s.crashed = none) (l : CLabel) (h : cStep db s l = some s') :
    s'.crashed = none ∨ s.disc.writes = true := by
  rcases crash_cause (cinv hg hr) h0 h with h | ⟨-, h | h⟩
  · exact .inl h
  · exact .inr h
  · have := (noFile hr).idle
    cases hv : s.saver <;> rw [hv] at h this <;> first | cases h | cases this

/-! ## C74 -/

/-- C74 is false: the user can receive the announcement of a node and find that the node has no
connection. -/
theorem C74_violated_not_set_up : ∃ s, CReach demoDB false [] s ∧ Event.discovered 2 ∈ taken s.hist ∧
    s.list.get 2 = some 0 ∧ (s.heap 0).node.hasConn = false := by
  have h : ((cRun demoDB (start false []) ([.startDisc, .disc (.nodes [true, true])] ++ List.replicate 6 d ++ [.take])).map
      fun s => decide (Event.discovered 2 ∈ taken s.hist ∧ s.list.get 2 = some 0 ∧ (s.heap 0).node.hasConn = false)) =
        some true := by decide +kernel
  rw [Option.map_eq_some_iff] at h
  obtain ⟨s, h1, h2⟩ := h
  exact ⟨s, ⟨_, h1⟩, of_decide_eq_true h2⟩

/-- C74 as far as it holds: whenever the discovery is not in the middle of adding a node, every known
node is set up; nodes from the file are set up from the beginning. -/
theorem C74_set_up_partial (db : DB) (f : Bool) (ns : List Node) (hg : GoodFile ns) (s : CSt)
    (hr : CReach db f ns s) (id : Int) (ref : Nat) (hl : s.list.get id = some ref)
    (hd : s.disc = .absent ∨ s.disc = .wait ∨ (∃ t, s.disc = .loop t) ∨ s.disc = .done ∨ ref < ns.length) :
    (s.heap ref).node.hasConn = true := by
  have c := cinv hg hr
  have hlt := (c.list id ref hl).1
  rcases hd with h | h | ⟨t, h⟩ | h | h
  iterate 4
    rcases c.conn ref hlt with h' | h'
    · rw [h] at h'; cases h'
    · exact h'
  obtain ⟨n, hn, ls, e, -⟩ := (bornInv hg hr).born ref hlt
  rcases hn with ⟨h', -⟩ | ⟨m, -, rfl⟩
  · omega
  · exact run_induct (db := db) (P := fun x => x.node.hasConn = true)
      (fun x l y hx hs => by rw [(frame_step hs).hasConn, hx]; rfl) ls _ _ rfl e

/-! ## C75 -/

/-- C75: the library starts at most one identification of a node. -/
theorem C75_at_most_one_identification (db : DB) (f : Bool) (ns : List Node) (hg : GoodFile ns) (s : CSt)
    (hr : CReach db f ns s) (ref : Nat) (hlt : ref < s.nHeap) : (s.heap ref).nIdent ≤ 1 :=
  (cinv hg hr).one ref hlt

/-- C75: after a discovery exactly the active nodes have been asked to identify themselves, each once. -/
theorem C75_active_nodes_identified (db : DB) (f : Bool) (ns : List Node) (hg : GoodFile ns) (s s1 s2 : CSt)
    (hr : CReach db f ns s) (hw : s.disc = .wait) (bm : List Bool) (ls : List CLabel)
    (h1 : cStep db s (.disc (.nodes bm)) = some s1) (h2 : cRun db s1 ls = some s2) (hd : s2.disc = .done)
    (id : Int) (ref : Nat) (hl : s2.list.get id = some ref) :
    (Active bm id → (s2.heap ref).nIdent = 1) ∧ (¬ Active bm id → (s2.heap ref).nIdent = 0) := by
  have hr1 := creach_step hr h1
  have i1 := ident_run hg ls s1 s2 hr1 (ident_reply (cinv hg hr) hw h1) h2
  obtain ⟨c1, c2⟩ := (cinv hg (creach_run hr1 h2)).list id ref hl
  have := i1.count ref c1
  have hu : unstarted s2 = [] := by unfold unstarted; rw [hd]; rfl
  rw [hu, c2] at this
  constructor
  · intro ha; rw [this, if_pos ⟨(active_mem bm id).2 ha, by simp⟩]
  · intro ha; rw [this, if_neg (fun h => ha ((active_mem bm id).1 h.1))]

/-- Node 2 is active, node 5, known from the file, is not. -/
example : ∃ s, CReach demoDB true [fileNode 5] s ∧ s.disc = .done ∧ (s.heap 0).nIdent = 0 ∧ (s.heap 1).nIdent = 1 := by
  have h : ((cRun demoDB (start true [fileNode 5]) discOne).map fun s =>
      decide (s.disc = .done ∧ (s.heap 0).nIdent = 0 ∧ (s.heap 1).nIdent = 1)) = some true := by decide +kernel
  rw [Option.map_eq_some_iff] at h
  obtain ⟨s, h1, h2⟩ := h
  exact ⟨s, ⟨_, h1⟩, of_decide_eq_true h2⟩

end Verif.Props
