import Verif.Props.Ctl
import Verif.Props.NodeAsk

/-
C88: update events; and what C56 and C87 mean for the nodes of a controller.
-/

set_option linter.unusedSimpArgs false
set_option linter.unusedVariables false
set_option maxHeartbeats 4000000

namespace Verif.Props

open Verif.Go Verif.Model Verif.Spec Verif.Lemmas.NodeM Verif.Lemmas.Ctl

/-! ## C88 -/

/-- How often a node has called its `pushEvent`. -/
def calls (x : NSt) : Nat := x.hist.countP fun e => e = .pushed

theorem put_hist (s : CSt) (ref : Nat) (n : NSt) : (s.put ref n).hist =
    (if calls (s.heap ref) < calls n ∧ n.node.hasConn = true then
      [.pushed (.updated n.node.id) (decide (s.queue.length < queCap))] else []) ++ s.hist := by
  unfold CSt.put calls nodePushes
  simp only
  split <;> simp [CSt.push]

/-- A node that is being added is not set up. -/
def AddInv (s : CSt) : Prop := ∀ r, DiscAt.adding s.disc = some r → (s.heap r).node.hasConn = false

theorem add_step {db : DB} {s s' : CSt} {l : CLabel} (hi : AddInv s) (h : cStep db s l = some s') : AddInv s' := by
  have hput : ∀ {ref : Nat} {x : NSt} {m : NLabel}, nodeStep db (s.heap ref) m = some x → m ≠ .setup →
      ∀ r, (s.heap r).node.hasConn = false → (updN s.heap ref x r).node.hasConn = false := by
    intro ref x m hx hm r hr
    have := (frame_step hx).hasConn
    unfold updN
    split
    · rename_i e; subst e; rw [this, hr]; simp [hm]
    · exact hr
  have hnew : ∀ id r, (updN s.heap s.nHeap (NSt.start (newNode id)) r).node.hasConn = false ∨ r ≠ s.nHeap := by
    intro id r
    by_cases e : r = s.nHeap
    · left; subst e; simp [updN, NSt.start, newNode]
    · exact .inr e
  unfold AddInv at *
  ctl_step h
  all_goals try have q2 := congrArg DiscAt.adding (by assumption : CSt.disc s = _)
  all_goals try simp only [DiscAt.adding] at q2
  all_goals try simp only [put_disc, put_heap, push_heap, push_disc, DiscAt.adding]
  all_goals intro r hr
  all_goals first
    | exact hi r hr
    | (cases hr; done)
    | exact hi r (q2.trans hr)
    | exact hput (by assumption) (by simp) r (hi r hr)
    | exact (hnew _ r).resolve_right (by cases hr; simp)

theorem addInv {db : DB} {f : Bool} {ns : List Node} {s : CSt} (h : CReach db f ns s) : AddInv s := by
  obtain ⟨ls, h⟩ := h
  refine crun_induct (db := db) (P := AddInv) (fun s l s' => add_step) ls _ _ ?_ h
  have : ∀ (ns : List Node) (s : CSt), s.disc = .absent → (s.loadNodes ns).disc = .absent := by
    intro ns
    induction ns with
    | nil => intro s h; exact h
    | cons n ns ih => intro s h; exact ih (s.loadNode n) h
  intro r hr
  unfold start at hr
  rw [this ns _ rfl] at hr
  cases hr

theorem setup_calls {db : DB} {s s' : NSt} (h : nodeStep db s .setup = some s') : calls s' = calls s := by
  unfold nodeStep at h
  split at h
  · cases h
  · simp only [Option.some.injEq] at h
    subst h
    rfl

/-- C88: an update event carries the address of a node in the list that has just announced a change; no other node
changes in that step. -/
theorem C88_update_names_node (db : DB) (f : Bool) (ns : List Node) (hg : GoodFile ns) (s s' : CSt) (l : CLabel)
    (hr : CReach db f ns s) (h : cStep db s l = some s') (es : List CEv) (he : s'.hist = es ++ s.hist) (a : Int)
    (ok : Bool) (hm : .pushed (.updated a) ok ∈ es) :
    ∃ ref, s.list.get a = some ref ∧ (s'.heap ref).node.id = a ∧ calls (s.heap ref) < calls (s'.heap ref) ∧
      ∀ r, r ≠ ref → s'.heap r = s.heap r := by
  have c := cinv hg hr
  have ca := addInv hr
  have key : ∀ (ref : Nat) (x : NSt) (m : NLabel) (t : List CEv), ref < s.nHeap →
      nodeStep db (s.heap ref) m = some x → m ≠ .setup → s'.heap = updN s.heap ref x →
      s'.hist = (if calls (s.heap ref) < calls x ∧ x.node.hasConn = true then
        [.pushed (.updated x.node.id) (decide (s.queue.length < queCap))] else []) ++ (t ++ s.hist) →
      (∀ a ok, .pushed (.updated a) ok ∉ t) → ∃ ref, s.list.get a = some ref ∧ (s'.heap ref).node.id = a ∧
        calls (s.heap ref) < calls (s'.heap ref) ∧ ∀ r, r ≠ ref → s'.heap r = s.heap r := by
    intro ref x m t hlt hx hms hh hh2 ht
    rw [he, ← List.append_assoc] at hh2
    have hes := List.append_cancel_right hh2
    rw [hes] at hm
    rcases List.mem_append.1 hm with hm | hm
    · split at hm
      · rename_i hc
        simp only [List.mem_singleton, CEv.pushed.injEq, Event.updated.injEq] at hm
        obtain ⟨rfl, -⟩ := hm
        have fr := frame_step hx
        have hcn : (s.heap ref).node.hasConn = true := by
          have := fr.hasConn
          rw [hc.2] at this
          simpa [hms] using this.symm
        refine ⟨ref, ?_, by rw [hh]; simp [updN], by rw [hh]; simpa [updN] using hc.1,
          fun r hne => by rw [hh]; simp [updN, hne]⟩
        rw [fr.id]
        refine (c.known ref hlt).resolve_left (fun hadd => ?_)
        have := ca ref hadd
        rw [hcn] at this; cases this
      · cases hm
    · exact absurd hm (ht _ _)
  have none : ∀ t : List CEv, s'.hist = t ++ s.hist → (∀ a ok, .pushed (.updated a) ok ∉ t) → False := by
    intro t h1 h2
    rw [he] at h1
    exact h2 _ _ (List.append_cancel_right h1 ▸ hm)
  have c6 := c.ref
  have c7 := c.dref
  ctl_step h
  all_goals first
    | (exfalso; exact none [] rfl (by simp); done)
    | (exfalso; exact none [_] rfl (by simp); done)
    | (have hs := setup_calls (by assumption)
       exfalso
       refine none [] ?_ (by simp)
       show (CSt.put s _ _).hist = _
       rw [put_hist, if_neg (fun hc => by omega)])
    | exact key _ _ _ [] (by assumption) (by assumption) (by simp) (put_heap ..) (put_hist ..) (by simp)
    | exact key _ _ _ [] (c6 _ (by simp only [*]; rfl)) (by assumption) (by simp) (put_heap ..) (put_hist ..) (by simp)
    | skip
  · rename_i k _ ref r heq n hn
    exact key ref n _ [.applied k ref r] (c7 k ref (by rw [heq]; rfl)) hn (by simp) (put_heap ..)
      (put_hist { s with hist := .applied k ref r :: s.hist } ref n) (by simp)

/-- The reports that announce a change: states and raised alarms. -/
def announces (r : Report) : Prop :=
  isState r = true ∨ ∃ a, r = .alarm a ∧ a.status = 0xFF

theorem report_hist {db : DB} {x y : NSt} {r : Report} (h : nodeStep db x (.report r) = some y) (hc : y.crashed = none) :
    (announces r → y.hist = .pushed :: x.hist) ∧ (¬ announces r → y.hist = x.hist) := by
  by_cases ha : ∃ a, r = .alarm a
  · obtain ⟨a, rfl⟩ := ha
    by_cases hs : a.status = 0xFF
    · refine ⟨fun _ => ?_, fun hn => absurd (.inr ⟨a, rfl, hs⟩) hn⟩
      unfold nodeStep at h
      split at h
      · cases h
      simp only [reportStep, if_pos hs] at h
      split at h
      · injection h with h; subst h
        revert hc
        split
        · intro hc; cases hc
        · intro _; rfl
      · cases h
    · refine ⟨fun hn => ?_, fun _ => by rw [C53_other_status_ignored db x y a hs h]⟩
      rcases hn with hn | ⟨b, e, hb⟩
      · cases hn
      · cases e; exact absurd hb hs
  · have q := C52_one_event_per_state_report db x y r h hc (fun a e => ha ⟨a, e⟩)
    refine ⟨fun hn => ?_, fun hn => ?_⟩
    · rcases hn with hn | ⟨a, e, -⟩
      · rw [q, if_pos hn]
      · exact absurd ⟨a, e⟩ ha
    · rw [q, if_neg (fun e => hn (.inl e))]

/-- C88: a report that carries a state or raises an alarm is announced, once, with the address it came
from; the event is lost only if ten events are waiting. Other reports announce nothing. Missing: reports
processed between the addition of a node and its setup, see `C88_violated_before_setup`. -/
theorem C88_report_announced_partial (db : DB) (f : Bool) (ns : List Node) (hg : GoodFile ns) (s s' : CSt)
    (hr : CReach db f ns s) (k ref : Nat) (r : Report) (hd : s.deliv k = .process ref r)
    (hc : (s.heap ref).node.hasConn = true) (h : cStep db s (.deliver k) = some s') :
    ∃ id : UInt8, arrivalOf k s.hist = some (id, r) ∧
      (announces r → s'.hist = .pushed (.updated id.toNat) (decide (s.queue.length < 10)) ::
          .applied k ref r :: s.hist ∧
        s'.queue = if s.queue.length < 10 then s.queue ++ [.updated id.toNat] else s.queue) ∧
      (¬ announces r → s'.hist = .applied k ref r :: s.hist ∧ s'.queue = s.queue) := by
  obtain ⟨id, a1, a2⟩ := C45_applies_what_arrived db f ns hg s hr k ref r hd
  refine ⟨id, a1, ?_⟩
  have c := cinv hg hr
  have hlt : ref < s.nHeap := c.dref k ref (by rw [hd]; rfl)
  unfold cStep at h
  split at h
  · cases h
  simp only [deliverStep, hd] at h
  rw [Option.map_eq_some_iff] at h
  obtain ⟨x, hx, rfl⟩ := h
  have hid : x.node.id = id.toNat := by rw [(frame_step hx).id]; exact a2
  have hxc : x.node.hasConn = true := by rw [(frame_step hx).hasConn, hc]; rfl
  have hok : x.crashed = none := (safe_step (c.safe ref hlt) hx (fun e => nomatch e)).ok
  obtain ⟨q1, q2⟩ := report_hist hx hok
  refine ⟨fun ha => ?_, fun ha => ?_⟩
  · have hp : nodePushes (s.heap ref) < nodePushes x ∧ x.node.hasConn = true := by
      refine ⟨?_, hxc⟩
      unfold nodePushes; rw [q1 ha]; simp
    unfold CSt.put
    simp only [if_pos hp, CSt.push, hid, queCap, decide_eq_true_eq]
    refine ⟨rfl, ?_⟩
    by_cases hq : s.queue.length < 10
    · rw [if_pos hq]; exact if_pos (decide_eq_true hq)
    · rw [if_neg hq]; exact if_neg (fun e => hq (of_decide_eq_true e))
  · have hp : ¬ (nodePushes (s.heap ref) < nodePushes x ∧ x.node.hasConn = true) := by
      unfold nodePushes; rw [q2 ha]; simp
    unfold CSt.put
    simp only [if_neg hp]
    exact ⟨trivial, trivial⟩

/-- A report of node 2 is announced. -/
example : ∃ s s', CReach demoDB true [] s ∧ s.deliv 0 = .process 0 repOn ∧ (s.heap 0).node.hasConn = true ∧
    announces repOn ∧ s.queue.length < 10 ∧ cStep demoDB s (.deliver 0) = some s' ∧
    s'.hist.head? = some (.pushed (.updated 2) true) := by
  have h : ((cRun demoDB (start true []) (discOne ++ [.arrive 2 repOn, .deliver 0, .deliver 0])).map fun s =>
      decide (s.deliv 0 = .process 0 repOn ∧ (s.heap 0).node.hasConn = true ∧ s.queue.length < 10 ∧
        ((cStep demoDB s (.deliver 0)).map fun s' => s'.hist.head?) = some (some (.pushed (.updated 2) true)))) = some true := by
    decide +kernel
  rw [Option.map_eq_some_iff] at h
  obtain ⟨s, h1, h2⟩ := h
  obtain ⟨a, b, c, e⟩ := of_decide_eq_true h2
  rw [Option.map_eq_some_iff] at e
  obtain ⟨s', e1, e2⟩ := e
  exact ⟨s, s', ⟨_, h1⟩, a, b, .inl rfl, c, e1, e2⟩

/-- C88 is false: a report that is processed after its node has been added to the list and before the node
is set up (controller.go 82-87) changes the state of the node, but no event announces it. -/
theorem C88_violated_before_setup : ∃ s s', CReach demoDB true [] s ∧ s.deliv 0 = .process 0 repOn ∧
    s.list.get 2 = some 0 ∧ cStep demoDB s (.deliver 0) = some s' ∧ boolState (s.heap 0).node "on".toList = none ∧
    boolState (s'.heap 0).node "on".toList = some true ∧ s'.hist = .applied 0 0 repOn :: s.hist ∧ s'.queue = s.queue := by
  have h : ((cRun demoDB (start true []) ([.startDisc, .disc (.nodes [true, true])] ++ List.replicate 5 d ++
      [.arrive 2 repOn, .deliver 0, .deliver 0])).map fun s =>
      decide (s.deliv 0 = .process 0 repOn ∧ s.list.get 2 = some 0 ∧ boolState (s.heap 0).node "on".toList = none ∧
        ((cStep demoDB s (.deliver 0)).map fun s' =>
          decide (boolState (s'.heap 0).node "on".toList = some true ∧ s'.hist = .applied 0 0 repOn :: s.hist ∧
            s'.queue = s.queue)) = some true)) = some true := by
    decide +kernel
  rw [Option.map_eq_some_iff] at h
  obtain ⟨s, h1, h2⟩ := h
  obtain ⟨a, b, c, e⟩ := of_decide_eq_true h2
  rw [Option.map_eq_some_iff] at e
  obtain ⟨s', e1, e2⟩ := e
  obtain ⟨e2, e3, e4⟩ := of_decide_eq_true e2
  exact ⟨s, s', ⟨_, h1⟩, a, b, e1, c, e2, e3, e4⟩

/-! ## C56 and C87 in a controller -/

/-- Every node of a controller is a node that began unidentified and went through a run of its own. -/
theorem ctl_node {db : DB} {f : Bool} {ns : List Node} {s : CSt} (hg : GoodFile ns) (hr : CReach db f ns s) {ref : Nat}
    (hlt : ref < s.nHeap) : ∃ n, FreshOk n ∧ n.identified = false ∧ n.statesOk = false ∧ NReach db n (s.heap ref) ∧
      n.id = (s.heap ref).node.id := by
  obtain ⟨n, hn, ls, e1, -⟩ := (bornInv hg hr).born ref hlt
  have hf : n.identified = false ∧ n.statesOk = false := by
    rcases hn with ⟨-, id, rfl⟩ | ⟨m, hm, rfl⟩
    · exact ⟨rfl, rfl⟩
    · have q := (hg.sound m (List.mem_of_getElem? hm)).fresh
      exact ⟨q.2.2, q.2.1⟩
  refine ⟨n, ⟨by simp [hf.2], by simp [hf.1]⟩, hf.1, hf.2, ⟨ls, e1⟩, ?_⟩
  have : ∀ (ls : List NLabel) (x y : NSt), nodeRun db x ls = some y → y.node.id = x.node.id := by
    intro ls
    induction ls with
    | nil => intro x y h; cases h; rfl
    | cons l ls ih =>
      intro x y h
      simp only [nodeRun] at h
      cases hs : nodeStep db x l with
      | none => rw [hs] at h; cases h
      | some z => rw [hs] at h; rw [ih z y h, (frame_step hs).id]
  exact (this ls _ _ e1).symm

/-- C56 for the nodes of a controller: the classes of an identified node are the mandatory ones of its type. -/
theorem C56_controller_classes (db : DB) (f : Bool) (ns : List Node) (hg : GoodFile ns) (s : CSt)
    (hr : CReach db f ns s) (id : Int) (ref : Nat) (hl : s.list.get id = some ref)
    (hi : (s.heap ref).node.identified = true) :
    ∃ p, (s.heap ref).node.protocolInfo = some p ∧ (s.heap ref).node.classes = db.mandatory p.generic p.specific := by
  have hlt := ((cinv hg hr).list id ref hl).1
  obtain ⟨n, h1, h2, -, h3, -⟩ := ctl_node hg hr hlt
  exact C56_classes_are_mandatory_partial db n _ h1 h2 h3 (C75_at_most_one_identification db f ns hg s hr ref hlt) hi

/-- C87 for the nodes of a controller: only queries, addressed to the node, and never a command that sets something. -/
theorem C87_controller_only_queries (db : DB) (f : Bool) (ns : List Node) (hg : GoodFile ns) (s : CSt)
    (hr : CReach db f ns s) (b : UInt8) (ref : Nat) (hl : s.list.get b.toNat = some ref) (i : Nat) (p : Option Purpose)
    (d : List UInt8) (hs : .sent i p d ∈ (s.heap ref).hist) : Query b p d ∧ ¬ isSet d := by
  obtain ⟨hlt, hid⟩ := (cinv hg hr).list _ ref hl
  obtain ⟨n, -, -, -, h3, h4⟩ := ctl_node hg hr hlt
  have hb : n.id = b.toNat := by rw [h4, hid]
  exact ⟨C87_only_queries db n _ b hb h3 i p d hs, C87_never_switches db n _ b hb h3 i p d hs⟩

/-- C87 for the nodes of a controller: an identified node has been asked for all states its classes have. -/
theorem C87_controller_asks_all_states (db : DB) (f : Bool) (ns : List Node) (hg : GoodFile ns) (s : CSt)
    (hr : CReach db f ns s) (id : Int) (ref : Nat) (hl : s.list.get id = some ref)
    (hi : (s.heap ref).node.identified = true) (c : UInt8) (hc : (s.heap ref).node.hasCommand c = true)
    (hs : hasState c) : ∃ i d, .sent i (some .states) d ∈ (s.heap ref).hist ∧ asksFor c d := by
  have hlt := ((cinv hg hr).list id ref hl).1
  obtain ⟨n, h1, -, h2, h3, -⟩ := ctl_node hg hr hlt
  exact C87_asks_all_states_partial db n _ h1 h2 h3 (C75_at_most_one_identification db f ns hg s hr ref hlt) hi c hc hs

/-- C87 for the nodes of a controller: each state request is for a class that the node has at that moment. -/
theorem C87_controller_asks_what_it_has (db : DB) (f : Bool) (ns : List Node) (hg : GoodFile ns) (s s' : CSt)
    (hr : CReach db f ns s) (ref : Nat) (hlt : ref < s.nHeap) (l : CLabel) (h : cStep db s l = some s') (i : Nat)
    (d : List UInt8) (hd : (s'.heap ref).hist = .sent i (some .states) d :: (s.heap ref).hist) :
    ∃ c, d[3]? = some c ∧ (s.heap ref).node.hasCommand c = true := by
  obtain ⟨n, h1, -, h2, h3, -⟩ := ctl_node hg hr hlt
  have h4 := C75_at_most_one_identification db f ns hg s hr ref hlt
  have key : ∀ m x, nodeStep db (s.heap ref) m = some x → s'.heap ref = x →
      ∃ c, d[3]? = some c ∧ (s.heap ref).node.hasCommand c = true := fun m x hx e =>
    C87_asks_what_it_has_partial db n _ x m h1 h2 h3 h4 hx i d (e ▸ hd)
  have same : s'.heap ref = s.heap ref → ∃ c, d[3]? = some c ∧ (s.heap ref).node.hasCommand c = true := fun e => by
    have := congrArg List.length (e ▸ hd)
    simp at this
  have put : ∀ r m x, nodeStep db (s.heap r) m = some x → s'.heap = updN s.heap r x →
      ∃ c, d[3]? = some c ∧ (s.heap ref).node.hasCommand c = true := by
    intro r m x hx e
    by_cases er : ref = r
    · subst er
      exact key m x hx (by rw [e]; simp [updN])
    · exact same (by rw [e]; simp [updN, er])
  ctl_step h
  all_goals first
    | exact same rfl
    | exact put _ _ _ (by assumption) (put_heap ..)
    | exact same (by simp [updN, Nat.ne_of_lt hlt])

/-- A discovery and the complete identification of node 2 by the controller. -/
example : ((cRun demoDB (start true []) (discOne ++ ((demoIdent 2).drop 1).dropLast.map (.node 0))).map fun s =>
    decide (s.list.get 2 = some 0 ∧ (s.heap 0).node.identified = true ∧ (s.heap 0).node.hasCommand 0x25 = true ∧
      .sent 0 (some .states) [0x13, 0x02, 0x04, 0x25, 0x02, 0x25] ∈ (s.heap 0).hist)) = some true := by
  decide +kernel

end Verif.Props
