import Verif.Model.Save
import Verif.Props.Known

/-
C109: a save while nodes change.
-/

set_option linter.unusedSimpArgs false
set_option linter.unusedVariables false
set_option maxHeartbeats 4000000

namespace Verif.Props

open Verif.Go Verif.Model Verif.Spec Verif.Lemmas Verif.Lemmas.NodeM Verif.Lemmas.Ctl Verif.Lemmas.Persist

/-- The parts end in the step of the machine. -/
theorem manufacturerParts_last (db : DB) (n : Node) (m : ManufacturerSpecific) :
    (manufacturerParts db n m).getLast? = some (n.setManufacturer db m) := by
  unfold manufacturerParts Node.setManufacturer
  cases hd : db.device m.manufacturer m.type m.id with
  | none => rfl
  | some d =>
    cases hc : d.classes with
    | nil => cases hn : n.classes <;> simp [hc, hn]
    | cons c cs =>
      have e : (c :: cs).take (cs.length + 1) = c :: cs := List.take_of_length_le (by simp)
      have e2 : ∀ (l : List Node) x y, (x :: (l ++ [y])).getLast? = some y := fun l x y => by
        rw [← List.cons_append, List.getLast?_concat]
      cases hn : n.classes <;> simp [hc, hn, List.range_succ, e, e2]

theorem endpointParts_last (n : Node) (k : Nat) :
    (endpointParts n k).getLast? = some { n with endpoints := some (n.makeEndpoints k) } := by
  unfold endpointParts
  simp only [List.range_succ, List.map_append, List.map_cons, List.map_nil, List.getLast?_append, List.getLast?_singleton,
    Option.some_or, Node.makeEndpoints]
  cases k <;> simp

/-- What can be seen between two states of a node. -/
structure Between (a n b : Node) : Prop where
  id : n.id = b.id
  manufacturer : n.manufacturer = a.manufacturer ∨ n.manufacturer = b.manufacturer
  brand : n.brand = a.brand ∨ n.brand = b.brand
  product : n.product = a.product ∨ n.product = b.product
  description : n.description = a.description ∨ n.description = b.description
  endpoints : n.endpoints = a.endpoints ∨ ∃ es k, b.endpoints = some es ∧ n.endpoints = some (es.take k)
  known : a.endpoints ≠ none → n.endpoints = a.endpoints

theorem between_step {db : DB} {s s' : NSt} {l : NLabel} (h : nodeStep db s l = some s') :
    s'.node.id = s.node.id ∧
    ((s'.node.manufacturer = s.node.manufacturer ∧ s'.node.brand = s.node.brand ∧ s'.node.product = s.node.product ∧
      s'.node.description = s.node.description) ∨ s'.node.manufacturer ≠ none) ∧
    (s'.node.endpoints = s.node.endpoints ∨ s'.node.endpoints ≠ none) := by
  node_step h
  all_goals try have c := (alarmOn_ok (by assumption)).1
  all_goals try have c := (alarmOff_ok (by assumption)).1
  all_goals try have c := applyState_core (by assumption)
  all_goals try obtain ⟨c1, c2, c3, c4, c5, c6, c7⟩ := c
  all_goals first
    | exact ⟨rfl, .inl ⟨rfl, rfl, rfl, rfl⟩, .inl rfl⟩
    | grind [Node.setManufacturer]
    | skip

theorem between_parts {db : DB} {n x : Node} {m : ManufacturerSpecific} (h : x ∈ manufacturerParts db n m) :
    Between n x (n.setManufacturer db m) ∧ x.endpoints = n.endpoints ∧ x.manufacturer = some m := by
  unfold manufacturerParts at h
  cases hd : db.device m.manufacturer m.type m.id with
  | none =>
    rw [hd] at h
    simp only [List.mem_singleton] at h
    subst h
    refine ⟨⟨?_, .inr ?_, .inl rfl, .inl rfl, .inl rfl, .inl rfl, fun _ => rfl⟩, rfl, rfl⟩ <;> simp [Node.setManufacturer, hd]
  | some d =>
    rw [hd] at h
    simp only [List.mem_append, List.mem_cons, List.not_mem_nil, or_false, List.mem_map] at h
    rcases h with (rfl | rfl | rfl | rfl) | ⟨k, -, rfl⟩ <;>
      refine ⟨⟨?_, .inr ?_, ?_, ?_, ?_, .inl rfl, fun _ => rfl⟩, rfl, rfl⟩ <;> simp [Node.setManufacturer, hd]

theorem between_endpoints {n x : Node} {k : Nat} (h0 : n.endpoints = none) (h : x ∈ endpointParts n k) :
    Between n x { n with endpoints := some (n.makeEndpoints k) } ∧
      x.manufacturer = n.manufacturer ∧ x.brand = n.brand ∧ x.product = n.product ∧ x.description = n.description := by
  unfold endpointParts at h
  obtain ⟨j, hj, rfl⟩ := List.mem_map.1 h
  rw [List.mem_range] at hj
  refine ⟨⟨rfl, .inl rfl, .inl rfl, .inl rfl, .inl rfl, .inr ⟨_, j, rfl, ?_⟩, fun hk => absurd h0 hk⟩, rfl, rfl, rfl, rfl⟩
  simp only [Node.makeEndpoints, ← List.map_take, List.take_range, Nat.add_sub_cancel]
  rw [Nat.min_eq_left (by omega)]

theorem crun_cons {db : DB} {s s' t : CSt} {l : CLabel} {ls : List CLabel} (h : cRun db s (l :: ls) = some t)
    (h1 : cStep db s l = some s') : cRun db s' ls = some t := by
  rw [cRun, h1] at h
  exact h

theorem parts_between {db : DB} {s s' : CSt} {ref : Nat} {l : CLabel} {n : Node} (hi : SeekInv (s.heap ref)) (hn : n ∈ partsOf db s ref l)
    (h : cStep db s l = some s') :
    Between (s.heap ref).node n (s'.heap ref).node ∧
      ((n.manufacturer ≠ none ∧ (s'.heap ref).node.manufacturer ≠ none ∧ n.endpoints = (s.heap ref).node.endpoints) ∨
       ((s'.heap ref).node.endpoints ≠ none ∧ n.manufacturer = (s.heap ref).node.manufacturer ∧
        n.brand = (s.heap ref).node.brand ∧ n.product = (s.heap ref).node.product ∧
        n.description = (s.heap ref).node.description)) := by
  unfold partsOf at hn
  split at hn
  · next r i m =>
    split at hn
    · next hq =>
      obtain ⟨rfl, hq⟩ := hq
      have e : (s'.heap r).node = (s.heap r).node.setManufacturer db m := by
        simp only [cStep, nodeStep, identStep, hq] at h
        repeat' split at h
        all_goals simp only [Option.map_some, Option.map_none, Option.some.injEq, reduceCtorEq] at h
        all_goals subst h
        all_goals simp [put_heap, updN]
      obtain ⟨h1, h2, h3⟩ := between_parts hn
      rw [e]
      exact ⟨h1, .inl ⟨by simp [h3], by cases hd : db.device m.manufacturer m.type m.id <;> simp [Node.setManufacturer, hd], h2⟩⟩
    · cases hn
  · next r i m =>
    split at hn
    · next hq =>
      obtain ⟨rfl, hq⟩ := hq
      have e : (s'.heap r).node = { (s.heap r).node with endpoints := some ((s.heap r).node.makeEndpoints m.endpoints) } := by
        simp only [cStep, nodeStep, identStep, hq] at h
        repeat' split at h
        all_goals simp only [Option.map_some, Option.map_none, Option.some.injEq, reduceCtorEq] at h
        all_goals subst h
        all_goals simp [put_heap, updN]
      obtain ⟨h1, h2, h3, h4, h5⟩ := between_endpoints (hi.eps i (by rw [hq]; rfl)) hn
      rw [e]
      exact ⟨h1, .inr ⟨by simp, h2, h3, h4, h5⟩⟩
    · cases hn
  · cases hn

/-- Whatever is seen of a node while steps are taken lies between its first and its last state. -/
theorem seen_between {db : DB} {f : Bool} {ns : List Node} (hg : GoodFile ns) {ref : Nat} {s : CSt} {ls : List CLabel} {n : Node}
    (h : Seen db ref s ls n) : ∀ {t : CSt}, CReach db f ns s → ref < s.nHeap → cRun db s ls = some t →
      Between (s.heap ref).node n (t.heap ref).node := by
  have idc : ∀ {x y : CSt} {l : CLabel}, ref < x.nHeap → cStep db x l = some y → (y.heap ref).node.id = (x.heap ref).node.id := by
    intro x y l hlt hs
    rcases applied_step hlt hs with ⟨h2, -⟩ | ⟨l', h2, -⟩
    · rw [h2]
    · exact (between_step h2).1
  have ids : ∀ {ls : List CLabel} {x y : CSt}, ref < x.nHeap → cRun db x ls = some y → (y.heap ref).node.id = (x.heap ref).node.id := by
    intro ls x y hlt hs
    exact (crun_induct (P := fun z => ref < z.nHeap ∧ (z.heap ref).node.id = (x.heap ref).node.id)
      (fun a l b ⟨p1, p2⟩ hb => ⟨Nat.lt_of_lt_of_le p1 (nHeap_step hb), (idc p1 hb).trans p2⟩) ls _ _ ⟨hlt, rfl⟩ hs).2
  induction h with
  | @now s ls =>
    intro t hr hlt hs
    exact ⟨(ids hlt hs).symm, .inl rfl, .inl rfl, .inl rfl, .inl rfl, .inl rfl, fun _ => rfl⟩
  | @part s s' l ls n hs hn =>
    intro t hr hlt hrun
    have hrun' := crun_cons hrun hs
    have hlt' := Nat.lt_of_lt_of_le hlt (nHeap_step hs)
    obtain ⟨k1, k2, k3⟩ := C105_known_stays db f ns hg s' t (creach_step hr hs) ls hrun' ref hlt'
    have hid := ids hlt' hrun'
    obtain ⟨⟨b1, b2, b3, b4, b5, b6, b7⟩, hx⟩ := parts_between (seekAll hg hr ref hlt) hn hs
    rcases hx with ⟨x1, x2, x3⟩ | ⟨x1, x2, x3, x4, x5⟩
    · obtain ⟨k4, k5, k6, k7⟩ := k2 x2
      refine ⟨b1.trans hid.symm, ?_, ?_, ?_, ?_, .inl x3, b7⟩
      · rw [k4]; exact b2
      · rw [k5]; exact b3
      · rw [k6]; exact b4
      · rw [k7]; exact b5
    · refine ⟨b1.trans hid.symm, .inl x2, .inl x3, .inl x4, .inl x5, ?_, b7⟩
      rw [k3 x1]
      exact b6
  | @later s s' l ls n hs _ ih =>
    intro t hr hlt hrun
    have hrun' := crun_cons hrun hs
    have hlt' := Nat.lt_of_lt_of_le hlt (nHeap_step hs)
    obtain ⟨k1, k2, k3⟩ := C105_known_stays db f ns hg s' t (creach_step hr hs) ls hrun' ref hlt'
    obtain ⟨b1, b2, b3, b4, b5, b6, b7⟩ := ih (creach_step hr hs) hlt' hrun'
    rcases applied_step hlt hs with ⟨h2, -⟩ | ⟨l', h2, -⟩
    · rw [h2] at b2 b3 b4 b5 b6 b7
      exact ⟨b1, b2, b3, b4, b5, b6, b7⟩
    · obtain ⟨-, h3, h4⟩ := between_step h2
      have hm : ((s'.heap ref).node.manufacturer = (s.heap ref).node.manufacturer ∨
            (s'.heap ref).node.manufacturer = (t.heap ref).node.manufacturer) ∧
          ((s'.heap ref).node.brand = (s.heap ref).node.brand ∨ (s'.heap ref).node.brand = (t.heap ref).node.brand) ∧
          ((s'.heap ref).node.product = (s.heap ref).node.product ∨ (s'.heap ref).node.product = (t.heap ref).node.product) ∧
          ((s'.heap ref).node.description = (s.heap ref).node.description ∨
            (s'.heap ref).node.description = (t.heap ref).node.description) := by
        rcases h3 with ⟨a1, a2, a3, a4⟩ | h3
        · exact ⟨.inl a1, .inl a2, .inl a3, .inl a4⟩
        · obtain ⟨k4, k5, k6, k7⟩ := k2 h3
          exact ⟨.inr k4.symm, .inr k5.symm, .inr k6.symm, .inr k7.symm⟩
      obtain ⟨m1, m2, m3, m4⟩ := hm
      have ks := (keeps_step (seekAll hg hr ref hlt) h2).eps
      refine ⟨b1, ?_, ?_, ?_, ?_, ?_, fun hk => (b7 (by rw [ks hk]; exact hk)).trans (ks hk)⟩
      · rcases b2 with e | e
        · rw [e]; exact m1
        · exact .inr e
      · rcases b3 with e | e
        · rw [e]; exact m2
        · exact .inr e
      · rcases b4 with e | e
        · rw [e]; exact m3
        · exact .inr e
      · rcases b5 with e | e
        · rw [e]; exact m4
        · exact .inr e
      · rcases b6 with e | e
        · rcases h4 with h4 | h4
          · rw [e, h4]; exact .inl rfl
          · cases hq : (s'.heap ref).node.endpoints with
            | none => exact absurd hq h4
            | some es =>
              rw [hq] at e
              refine .inr ⟨es, es.length, by rw [k3 h4, hq], by rw [e, List.take_length]⟩
        · exact .inr e

/-- The numbers of the endpoints, as they are saved. -/
def epIds (n : Node) : Option (List Int) := n.endpoints.map fun es => es.map Endpoint.id

/-- C109: what a save writes for a node that changes meanwhile is for each field what it was before or what it is
afterwards, and of the endpoints the first ones; nothing else gets into the file. -/
theorem C109_old_or_new (db : DB) (f : Bool) (ns : List Node) (hg : GoodFile ns) (s t : CSt) (hr : CReach db f ns s)
    (ls : List CLabel) (h : cRun db s ls = some t) (ref : Nat) (hlt : ref < s.nHeap) (n : Node) (hw : Written db ref s ls n) :
    n.id = (t.heap ref).node.id ∧
    (n.manufacturer = (s.heap ref).node.manufacturer ∨ n.manufacturer = (t.heap ref).node.manufacturer) ∧
    (n.brand = (s.heap ref).node.brand ∨ n.brand = (t.heap ref).node.brand) ∧
    (n.product = (s.heap ref).node.product ∨ n.product = (t.heap ref).node.product) ∧
    (n.description = (s.heap ref).node.description ∨ n.description = (t.heap ref).node.description) ∧
    (epIds n = epIds (s.heap ref).node ∨ ∃ ids k, epIds (t.heap ref).node = some ids ∧ epIds n = some (ids.take k)) := by
  have b : ∀ {x}, Seen db ref s ls x → _ := fun hx => seen_between hg hx hr hlt h
  obtain ⟨⟨x1, w1, e1⟩, ⟨x2, w2, e2⟩, ⟨x3, w3, e3⟩, ⟨x4, w4, e4⟩, ⟨x5, w5, e5⟩, -, ⟨x6, w6, e6⟩⟩ := hw
  refine ⟨e1.trans (b w1).id, by rw [e2]; exact (b w2).manufacturer, by rw [e3]; exact (b w3).brand,
    by rw [e4]; exact (b w4).product, by rw [e5]; exact (b w5).description, ?_⟩
  unfold epIds
  rw [e6]
  rcases (b w6).endpoints with e | ⟨es, k, ea, eb⟩
  · exact .inl (by rw [e])
  · exact .inr ⟨es.map Endpoint.id, k, by rw [ea]; rfl, by rw [eb]; simp [List.map_take]⟩

/-- C109: what was known when the save began is in the file as it is. -/
theorem C109_known_is_saved (db : DB) (f : Bool) (ns : List Node) (hg : GoodFile ns) (s t : CSt) (hr : CReach db f ns s)
    (ls : List CLabel) (h : cRun db s ls = some t) (ref : Nat) (hlt : ref < s.nHeap) (n : Node) (hw : Written db ref s ls n) :
    ((s.heap ref).node.manufacturer ≠ none → n.manufacturer = (t.heap ref).node.manufacturer ∧
      n.brand = (t.heap ref).node.brand ∧ n.product = (t.heap ref).node.product ∧
      n.description = (t.heap ref).node.description) ∧
    ((s.heap ref).node.endpoints ≠ none → epIds n = epIds (t.heap ref).node) := by
  obtain ⟨-, k2, k3⟩ := C105_known_stays db f ns hg s t hr ls h ref hlt
  obtain ⟨a1, a2, a3, a4, a5, a6⟩ := C109_old_or_new db f ns hg s t hr ls h ref hlt n hw
  refine ⟨fun hm => ?_, fun he => ?_⟩
  · obtain ⟨k4, k5, k6, k7⟩ := k2 hm
    rw [k4, k5, k6, k7]
    rw [k4] at a2; rw [k5] at a3; rw [k6] at a4; rw [k7] at a5
    exact ⟨a2.elim id id, a3.elim id id, a4.elim id id, a5.elim id id⟩
  · obtain ⟨x, hx, e⟩ := hw.endpoints
    unfold epIds
    rw [e, (seen_between hg hx hr hlt h).known he, k3 he]

/-! ### Saves that lose something for ever -/

/-- A save has begun to read node 2. -/
def saveBegins : List CLabel := [.startSaver, .saver .trigger, .tick 10000, .saver .timer, .saver .differ, .saver .go, .saver .go]

/-- The answers that come while the save reads the node. -/
def manReply : CLabel := .node 0 (.ident 0 (.report (.manufacturerSpecific demoMan)))
def epReply : CLabel := .node 0 (.ident 0 (.report (.multiChannelEndpoints ⟨false, false, 2⟩)))

/-- Node 2 in the file: the manufacturer, but nothing of what the device database says about it. -/
def tornNode : Node := { newNode 2 with manufacturer := some demoMan, classes := some [⟨0x25, true, false, true, []⟩] }

/-- Node 2 in the file: the list of endpoints, still empty. -/
def tornEndpoints : Node := { newNode 2 with manufacturer := some demoMan, brand := "Aeon".toList, product := "Switch".toList, classes := some [⟨0x25, true, false, true, []⟩, ⟨0x70, true, false, true, []⟩], endpoints := some [] }

theorem list_run {db : DB} {f : Bool} {ns : List Node} (hg : GoodFile ns) {s : CSt} (hr : CReach db f ns s) {i : Int} {r : Nat}
    (h : (start f ns).list.get i = some r) : s.list.get i = some r := by
  obtain ⟨ls, hls⟩ := hr
  exact (crun_induct (P := fun x => CInv x ∧ x.list.get i = some r)
    (fun a l b ⟨p1, p2⟩ hb => ⟨cinv_step p1 hb, list_same p1 hb p2⟩) ls _ _ ⟨cinv_start hg, h⟩ hls).2

/-- C109 is false for what becomes known during the save: the manufacturer is in the file, brand and product are
not, although the program shows them; after a restart they are never asked for and missing for ever. -/
theorem C109_violated_brand_lost : ∃ s t ls n, CReach demoDB true [] s ∧ cRun demoDB s ls = some t ∧
    s.saver.reads = some 0 ∧ t.saver.reads = some 0 ∧ t.crashed = none ∧ s.list.get 2 = some 0 ∧
    Written demoDB 0 s ls n ∧ (t.heap 0).node.brand = "Aeon".toList ∧
    ∀ s', CReach demoDB true [n] s' → s'.list.get 2 = some 0 ∧ (s'.heap 0).node.manufacturer = some demoMan ∧
      (s'.heap 0).node.brand = [] ∧ timesAsked (some .manufacturer) (s'.heap 0).hist = 0 := by
  have h : ((cRun demoDB (start true []) (ctlIdent.take 17 ++ saveBegins)).map fun s =>
      decide (s.saver.reads = some 0 ∧ s.list.get 2 = some 0 ∧ (s.heap 0).ident 0 = .reply .manufacturer ∧
        (s.heap 0).node.id = 2 ∧ (s.heap 0).node.brand = [] ∧ (s.heap 0).node.product = [] ∧
        (s.heap 0).node.description = [] ∧ (s.heap 0).node.endpoints = none ∧ (s.heap 0).node.classes = tornNode.classes ∧
        ((cRun demoDB s [manReply]).map fun t => decide (t.saver.reads = some 0 ∧ t.crashed.isNone = true ∧
          (t.heap 0).node.brand = "Aeon".toList)) = some true)) = some true := by decide +kernel
  rw [Option.map_eq_some_iff] at h
  obtain ⟨s, h1, h2⟩ := h
  obtain ⟨a1, a2, a3, a4, a5, a6, a7, a8, a10, a9⟩ := of_decide_eq_true h2
  rw [Option.map_eq_some_iff] at a9
  obtain ⟨t, d1, d2⟩ := a9
  obtain ⟨e1, e2, e3⟩ := of_decide_eq_true d2
  have hg : GoodFile [tornNode] := ⟨by
    intro n hn
    rw [List.mem_singleton] at hn
    subst hn
    exact ⟨rfl, rfl, rfl, rfl, rfl⟩, by simp⟩
  have hstep : ∃ t', cStep demoDB s manReply = some t' := by
    cases hq : cStep demoDB s manReply with
    | none => rw [cRun, hq] at d1; cases d1
    | some t' => exact ⟨t', rfl⟩
  obtain ⟨t', ht'⟩ := hstep
  have hp : { (s.heap 0).node with manufacturer := some demoMan } ∈ partsOf demoDB s 0 manReply := by
    have : manufacturerParts demoDB (s.heap 0).node demoMan ≠ [] ∧ (manufacturerParts demoDB (s.heap 0).node demoMan).head? =
        some { (s.heap 0).node with manufacturer := some demoMan } := by
      unfold manufacturerParts
      cases demoDB.device demoMan.manufacturer demoMan.type demoMan.id <;> simp
    simp only [partsOf, manReply, a3, and_self, if_true]
    exact List.mem_of_mem_head? this.2
  have now : Seen demoDB 0 s [manReply] (s.heap 0).node := .now
  refine ⟨s, t, [manReply], tornNode, ⟨_, h1⟩, d1, a1, e1, by simpa using e2, a2,
    ⟨⟨_, now, by rw [a4]; rfl⟩, ⟨_, .part ht' hp, rfl⟩, ⟨_, now, by rw [a5]; rfl⟩, ⟨_, now, by rw [a6]; rfl⟩,
      ⟨_, now, by rw [a7]; rfl⟩, ⟨_, now, a10.symm⟩, ⟨_, now, by rw [a8]; rfl⟩⟩, e3, fun s' hr => ?_⟩
  obtain ⟨x1, x2, x3⟩ := (C105_loaded_not_asked demoDB true [tornNode] hg s' hr 0 tornNode rfl).1 (by simp [tornNode])
  exact ⟨list_run hg hr (by decide), x2, x3, x1⟩

/-- C109 is false for the endpoints likewise: the node has one endpoint, the file says it has none, and after a
restart it has none for ever. -/
theorem C109_violated_endpoints_lost : ∃ s t ls n, CReach demoDB true [] s ∧ cRun demoDB s ls = some t ∧
    s.saver.reads = some 0 ∧ t.saver.reads = some 0 ∧ t.crashed = none ∧ s.list.get 2 = some 0 ∧
    Written demoDB 0 s ls n ∧ epIds (t.heap 0).node = some [1] ∧
    ∀ s', CReach demoDB true [n] s' → s'.list.get 2 = some 0 ∧ epIds (s'.heap 0).node = some [] ∧
      timesAsked (some .endpoints) (s'.heap 0).hist = 0 := by
  have h : ((cRun demoDB (start true []) (ctlIdent.take 21 ++ saveBegins)).map fun s =>
      decide (s.saver.reads = some 0 ∧ s.list.get 2 = some 0 ∧ (s.heap 0).ident 0 = .reply .endpoints ∧
        (s.heap 0).node.id = 2 ∧ (s.heap 0).node.brand = "Aeon".toList ∧ (s.heap 0).node.product = "Switch".toList ∧
        (s.heap 0).node.description = [] ∧ (s.heap 0).node.manufacturer = some demoMan ∧ (s.heap 0).node.classes = tornEndpoints.classes ∧
        ((cRun demoDB s [epReply]).map fun t => decide (t.saver.reads = some 0 ∧ t.crashed.isNone = true ∧
          epIds (t.heap 0).node = some [1])) = some true)) = some true := by decide +kernel
  rw [Option.map_eq_some_iff] at h
  obtain ⟨s, h1, h2⟩ := h
  obtain ⟨a1, a2, a3, a4, a5, a6, a7, a8, a10, a9⟩ := of_decide_eq_true h2
  rw [Option.map_eq_some_iff] at a9
  obtain ⟨t, d1, d2⟩ := a9
  obtain ⟨e1, e2, e3⟩ := of_decide_eq_true d2
  have hg : GoodFile [tornEndpoints] := ⟨by
    intro n hn
    rw [List.mem_singleton] at hn
    subst hn
    exact ⟨rfl, rfl, rfl, rfl, rfl⟩, by simp⟩
  have hstep : ∃ t', cStep demoDB s epReply = some t' := by
    cases hq : cStep demoDB s epReply with
    | none => rw [cRun, hq] at d1; cases d1
    | some t' => exact ⟨t', rfl⟩
  obtain ⟨t', ht'⟩ := hstep
  have hp : { (s.heap 0).node with endpoints := some [] } ∈ partsOf demoDB s 0 epReply := by
    simp only [partsOf, epReply, a3, and_self, if_true, endpointParts]
    exact List.mem_map.2 ⟨0, by simp, rfl⟩
  have now : Seen demoDB 0 s [epReply] (s.heap 0).node := .now
  refine ⟨s, t, [epReply], tornEndpoints, ⟨_, h1⟩, d1, a1, e1, by simpa using e2, a2,
    ⟨⟨_, now, by rw [a4]; rfl⟩, ⟨_, now, by rw [a8]; rfl⟩, ⟨_, now, by rw [a5]; rfl⟩, ⟨_, now, by rw [a6]; rfl⟩,
      ⟨_, now, by rw [a7]; rfl⟩, ⟨_, now, a10.symm⟩, ⟨_, .part ht' hp, rfl⟩⟩, e3, fun s' hr => ?_⟩
  obtain ⟨x1, x2⟩ := (C105_loaded_not_asked demoDB true [tornEndpoints] hg s' hr 0 tornEndpoints rfl).2 (by simp [tornEndpoints])
  exact ⟨list_run hg hr (by decide), by unfold epIds; rw [x2]; rfl, x1⟩

/-- The hypotheses of the positive theorems hold for a save of a node that is fully known. -/
example : ∃ s t ls, CReach demoDB true [] s ∧ cRun demoDB s ls = some t ∧ 0 < s.nHeap ∧
    Written demoDB 0 s ls (s.heap 0).node ∧ (s.heap 0).node.manufacturer ≠ none ∧ (s.heap 0).node.endpoints ≠ none := by
  have h : ((cRun demoDB (start true []) (ctlIdent.take 22 ++ saveBegins)).map fun s =>
      decide (0 < s.nHeap ∧ (s.heap 0).node.manufacturer ≠ none ∧ (s.heap 0).node.endpoints ≠ none ∧
        (cRun demoDB s [.saver .go, .saver .go, .saver .go]).isSome = true)) = some true := by decide +kernel
  rw [Option.map_eq_some_iff] at h
  obtain ⟨s, h1, h2⟩ := h
  obtain ⟨a, b, c, d⟩ := of_decide_eq_true h2
  obtain ⟨t, d⟩ := Option.isSome_iff_exists.1 d
  exact ⟨s, t, _, ⟨_, h1⟩, d, a, ⟨⟨_, .now, rfl⟩, ⟨_, .now, rfl⟩, ⟨_, .now, rfl⟩, ⟨_, .now, rfl⟩, ⟨_, .now, rfl⟩, ⟨_, .now, rfl⟩, ⟨_, .now, rfl⟩⟩, b, c⟩

end Verif.Props
