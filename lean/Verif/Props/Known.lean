import Verif.Props.AlarmFair
import Verif.Props.Web

/-
C105: what was learned about a node is final.
-/

set_option linter.unusedSimpArgs false
set_option linter.unusedVariables false
set_option maxHeartbeats 4000000

namespace Verif.Props

open Verif.Go Verif.Model Verif.Spec Verif.Lemmas Verif.Lemmas.NodeM Verif.Lemmas.Ctl Verif.Lemmas.Persist

variable {db : DB}

/-! ### What an identification is after -/

/-- What an identification is waiting for, or about to ask: `none` nothing, `some none` the protocol info. -/
def seeks : IdentAt → Option (Option Purpose)
  | .info => some none
  | .awTest p | .awNil p | .awMake p | .awRet p | .awWait p _ | .send p | .reply p => some (some p)
  | _ => none

/-- Nobody is after something that is known. -/
structure SeekInv (s : NSt) : Prop where
  freshI : ∀ i, s.nIdent ≤ i → s.ident i = .absent
  info : ∀ i, seeks (s.ident i) = some none → s.node.protocolInfo = none
  manu : ∀ i, seeks (s.ident i) = some (some .manufacturer) → s.node.manufacturer = none
  eps : ∀ i, seeks (s.ident i) = some (some .endpoints) → s.node.endpoints = none

/-- How often the node, or the stick on its behalf, was asked for something. -/
def timesAsked (p : Option Purpose) : List NEv → Nat
  | [] => 0
  | .sent _ p' _ :: h => timesAsked p h + (if p' = p then 1 else 0)
  | _ :: h => timesAsked p h

theorem seek_step {s s' : NSt} {l : NLabel} (hi : SeekInv s) (h : nodeStep db s l = some s') (h1 : s'.nIdent ≤ 1) :
    SeekInv s' := by
  obtain ⟨k1, k2, k3, k4⟩ := hi
  node_step h
  all_goals try have q := congrArg seeks (by assumption : NSt.ident s _ = _)
  all_goals try simp only [seeks] at q
  all_goals try have c := (alarmOn_ok (by assumption)).1
  all_goals try have c := (alarmOff_ok (by assumption)).1
  all_goals try have c := applyState_core (by assumption)
  all_goals try have c1 := c.protocolInfo
  all_goals try have c2 := c.manufacturer
  all_goals try have c3 := c.endpoints
  all_goals constructor
  all_goals first
    | assumption
    | grind [updN, seeks, Node.setManufacturer]
    | skip

/-- What is known of a node stays as it is. -/
structure Keeps (n n' : Node) : Prop where
  info : n.protocolInfo ≠ none → n'.protocolInfo = n.protocolInfo ∧ n'.isAwake = n.isAwake
  manu : n.manufacturer ≠ none → n'.manufacturer = n.manufacturer ∧ n'.brand = n.brand ∧ n'.product = n.product ∧
    n'.description = n.description
  eps : n.endpoints ≠ none → n'.endpoints = n.endpoints

theorem keeps_step {s s' : NSt} {l : NLabel} (hi : SeekInv s) (h : nodeStep db s l = some s') : Keeps s.node s'.node := by
  obtain ⟨k1, k2, k3, k4⟩ := hi
  node_step h
  all_goals try have q := congrArg seeks (by assumption : NSt.ident s _ = _)
  all_goals try simp only [seeks] at q
  all_goals try have c := (alarmOn_ok (by assumption)).1
  all_goals try have c := (alarmOff_ok (by assumption)).1
  all_goals try have c := applyState_core (by assumption)
  all_goals try obtain ⟨c1, c2, c3, c4, c5, c6, c7⟩ := c
  all_goals constructor
  all_goals first
    | assumption
    | grind [updN, seeks, Node.setManufacturer]
    | skip

theorem asked_step {s s' : NSt} {l : NLabel} (hi : SeekInv s) (h : nodeStep db s l = some s') :
    (s.node.protocolInfo ≠ none → timesAsked none s'.hist = timesAsked none s.hist) ∧
    (s.node.manufacturer ≠ none → timesAsked (some .manufacturer) s'.hist = timesAsked (some .manufacturer) s.hist) ∧
    (s.node.endpoints ≠ none → timesAsked (some .endpoints) s'.hist = timesAsked (some .endpoints) s.hist) := by
  obtain ⟨k1, k2, k3, k4⟩ := hi
  node_step h
  all_goals try have q := congrArg seeks (by assumption : NSt.ident s _ = _)
  all_goals try simp only [seeks] at q
  all_goals first
    | exact ⟨fun _ => rfl, fun _ => rfl, fun _ => rfl⟩
    | grind [updN, seeks, timesAsked]
    | skip

/-! ### The nodes of a controller -/

theorem seek_start (n : Node) : SeekInv (NSt.start n) := by
  constructor <;> simp [NSt.start, seeks]

/-- In every node of a controller. -/
def SeekAll (s : CSt) : Prop := ∀ r, r < s.nHeap → SeekInv (s.heap r)

/-- A node is new or went one step. -/
theorem heap_new {s s' : CSt} {l : CLabel} {ref : Nat} (h : cStep db s l = some s') (hlt : ref < s'.nHeap) :
    ref < s.nHeap ∨ ∃ n, s'.heap ref = NSt.start n := by
  by_cases hr : ref < s.nHeap
  · exact .inl hr
  · refine .inr ?_
    ctl_step h
    all_goals try simp only [put_nHeap, push_nHeap] at hlt
    all_goals first
      | exact absurd hlt hr
      | (have : ref = s.nHeap := by
           have h1 : ref < s.nHeap + 1 := hlt
           omega
         subst this
         exact ⟨_, by simp [updN]; rfl⟩)

theorem seekAll_step {s s' : CSt} {l : CLabel} (hc : CInv s) (hi : SeekAll s) (h : cStep db s l = some s') : SeekAll s' := by
  intro r hr
  rcases heap_new h hr with h1 | ⟨n, h1⟩
  · rcases applied_step h1 h with ⟨h2, -⟩ | ⟨l', h2, -⟩
    · rw [h2]; exact hi r h1
    · exact seek_step (hi r h1) h2 ((cinv_step hc h).one r hr)
  · rw [h1]; exact seek_start n

theorem seekAll_loads : ∀ (ns : List Node) {s : CSt}, SeekAll s → SeekAll (s.loadNodes ns)
  | [], _, h => h
  | n :: ns, s, h => by
    refine seekAll_loads ns (s := s.loadNode n) fun r hr => ?_
    by_cases e : r = s.nHeap
    · subst e
      have : (s.loadNode n).heap s.nHeap = NSt.start { n.link with hasConn := true } := by simp [CSt.loadNode, updN]
      rw [this]; exact seek_start _
    · have : (s.loadNode n).heap r = s.heap r := by simp [CSt.loadNode, updN, e]
      rw [this]
      refine h r ?_
      have : r < s.nHeap + 1 := hr
      omega

theorem seekAll {f : Bool} {ns : List Node} {s : CSt} (hg : GoodFile ns) (hr : CReach db f ns s) : SeekAll s := by
  obtain ⟨ls, h⟩ := hr
  exact (crun_induct (P := fun s => CInv s ∧ SeekAll s) (fun s l s' hp hs => ⟨cinv_step hp.1 hs, seekAll_step hp.1 hp.2 hs⟩) ls _ _
    ⟨cinv_start hg, seekAll_loads ns (fun r hr => absurd hr (by simp [newController]))⟩ h).2

theorem keeps_refl (n : Node) : Keeps n n := ⟨fun _ => ⟨rfl, rfl⟩, fun _ => ⟨rfl, rfl, rfl, rfl⟩, fun _ => rfl⟩

theorem keeps_trans {a b c : Node} (h : Keeps a b) (g : Keeps b c) : Keeps a c := by
  obtain ⟨h1, h2, h3⟩ := h
  obtain ⟨g1, g2, g3⟩ := g
  constructor <;> grind

/-- C105: what a running program knows about a node, protocol info, manufacturer, product and endpoints, does not
change any more, whatever is reported and however often the node is discovered. -/
theorem C105_known_stays (db : DB) (f : Bool) (ns : List Node) (hg : GoodFile ns) (s s' : CSt) (hr : CReach db f ns s)
    (ls : List CLabel) (h : cRun db s ls = some s') (ref : Nat) (hlt : ref < s.nHeap) :
    Keeps (s.heap ref).node (s'.heap ref).node := by
  have hc := cinv hg hr
  have hs := seekAll hg hr
  exact (crun_induct (P := fun x => CInv x ∧ SeekAll x ∧ ref < x.nHeap ∧ Keeps (s.heap ref).node (x.heap ref).node)
    (fun a l b ⟨p1, p2, p3, p4⟩ hb => by
      refine ⟨cinv_step p1 hb, seekAll_step p1 p2 hb, Nat.lt_of_lt_of_le p3 (nHeap_step hb), ?_⟩
      rcases applied_step p3 hb with ⟨h2, -⟩ | ⟨l', h2, -⟩
      · rw [h2]; exact p4
      · exact keeps_trans p4 (keeps_step (p2 ref p3) h2)) ls _ _ ⟨hc, hs, hlt, keeps_refl _⟩ h).2.2.2

/-- C105: nobody asks for what is known. -/
theorem C105_not_asked_again (db : DB) (f : Bool) (ns : List Node) (hg : GoodFile ns) (s s' : CSt) (hr : CReach db f ns s)
    (ls : List CLabel) (h : cRun db s ls = some s') (ref : Nat) (hlt : ref < s.nHeap) :
    ((s.heap ref).node.protocolInfo ≠ none → timesAsked none (s'.heap ref).hist = timesAsked none (s.heap ref).hist) ∧
    ((s.heap ref).node.manufacturer ≠ none →
      timesAsked (some .manufacturer) (s'.heap ref).hist = timesAsked (some .manufacturer) (s.heap ref).hist) ∧
    ((s.heap ref).node.endpoints ≠ none →
      timesAsked (some .endpoints) (s'.heap ref).hist = timesAsked (some .endpoints) (s.heap ref).hist) := by
  have hc := cinv hg hr
  have hs := seekAll hg hr
  exact (crun_induct (P := fun x => CInv x ∧ SeekAll x ∧ ref < x.nHeap ∧ Keeps (s.heap ref).node (x.heap ref).node ∧
      ((s.heap ref).node.protocolInfo ≠ none → timesAsked none (x.heap ref).hist = timesAsked none (s.heap ref).hist) ∧
      ((s.heap ref).node.manufacturer ≠ none →
        timesAsked (some .manufacturer) (x.heap ref).hist = timesAsked (some .manufacturer) (s.heap ref).hist) ∧
      ((s.heap ref).node.endpoints ≠ none →
        timesAsked (some .endpoints) (x.heap ref).hist = timesAsked (some .endpoints) (s.heap ref).hist))
    (fun a l b ⟨p1, p2, p3, p4, p5, p6, p7⟩ hb => by
      refine ⟨cinv_step p1 hb, seekAll_step p1 p2 hb, Nat.lt_of_lt_of_le p3 (nHeap_step hb), ?_⟩
      rcases applied_step p3 hb with ⟨h2, -⟩ | ⟨l', h2, -⟩
      · rw [h2]; exact ⟨p4, p5, p6, p7⟩
      · obtain ⟨a1, a2, a3⟩ := asked_step (p2 ref p3) h2
        obtain ⟨k1, k2, k3⟩ := p4
        refine ⟨keeps_trans ⟨k1, k2, k3⟩ (keeps_step (p2 ref p3) h2), fun hn => ?_, fun hn => ?_, fun hn => ?_⟩
        · rw [← p5 hn]; exact a1 (by rw [(k1 hn).1]; exact hn)
        · rw [← p6 hn]; exact a2 (by rw [(k2 hn).1]; exact hn)
        · rw [← p7 hn]; exact a3 (by rw [k3 hn]; exact hn)) ls _ _
    ⟨hc, hs, hlt, keeps_refl _, fun _ => rfl, fun _ => rfl, fun _ => rfl⟩ h).2.2.2.2

/-! ### Across restarts -/

/-- The controllers that come after `s`: the program goes on, or is started again with a file that was saved since. -/
inductive After (db : DB) (s : CSt) : CSt → Prop
  | now : After db s s
  | step {t t' : CSt} {l : CLabel} : After db s t → SensibleC l → cStep db t l = some t' → After db s t'
  | restart {t c : CSt} (o o' : Order) (hasFile : Bool) : After db s t →
      loadConfig o o' (some (saveText t.nodes)) (newController hasFile) = .ret false c → After db s c

theorem after_life {s t : CSt} (h : Life db s) (ha : After db s t) : Life db t := by
  induction ha with
  | now => exact h
  | step _ hl hs ih => exact .step ih hl hs
  | restart o o' f _ hc ih => exact .restart o o' f ih hc

theorem life_seek {s : CSt} (h : Life db s) : SeekAll s := by
  induction h with
  | first f => exact fun r hr => absurd hr (by simp [newController])
  | step hl _ hs ih => exact seekAll_step (life_inv hl).1 ih hs
  | @restart s c o o' f hl hc ih =>
    obtain ⟨ns, hp, hld⟩ := load_saved o o' (life_ok hl) (newController f)
    rw [hld] at hc
    injection hc with _ hc
    subst hc
    exact seekAll_loads _ (fun r hr => absurd hr (by simp [newController]))

theorem list_same {s s' : CSt} {l : CLabel} (hc : CInv s) (h : cStep db s l = some s') {i : Int} {r : Nat}
    (hl : s.list.get i = some r) : s'.list.get i = some r := by
  have k1 := hc.adding
  ctl_step h
  all_goals try simp only [put_list, push_list]
  all_goals first
    | exact hl
    | (have q := congrArg DiscAt.adding (by assumption : CSt.disc s = _)
       replace q := k1 _ q
       rw [get_put]
       split
       · next e => rw [e, q] at hl; cases hl
       · exact hl)

/-- What is kept of a node also when the program is started again. -/
structure KeepsSaved (n n' : Node) : Prop where
  manu : n.manufacturer ≠ none → n'.manufacturer = n.manufacturer ∧ n'.brand = n.brand ∧ n'.product = n.product ∧
    n'.description = n.description
  eps : n.endpoints ≠ none → (n'.endpoints.map fun es => es.map (·.id)) = n.endpoints.map fun es => es.map (·.id)

theorem restored_ids : ∀ {es es' : List Endpoint}, Pointwise RestoredEndpoint es es' → es'.map (·.id) = es.map (·.id)
  | [], [], _ => rfl
  | _ :: _, _ :: _, ⟨h1, h2⟩ => by simp [h1.id, restored_ids h2]
  | [], _ :: _, h => h.elim
  | _ :: _, [], h => h.elim

theorem restored_keeps {n n' : Node} (h : Restored n n') : KeepsSaved n n' := by
  refine ⟨fun _ => ⟨h.manufacturer, h.brand, h.product, h.description⟩, fun _ => ?_⟩
  have := h.endpoints
  cases h1 : n.endpoints <;> cases h2 : n'.endpoints <;> rw [h1, h2] at this
  · exact absurd h1 ‹_›
  · exact False.elim this
  · simp only [Option.map_some, restored_ids this]

theorem keepsSaved_trans {a b c : Node} (h : KeepsSaved a b) (g : KeepsSaved b c) : KeepsSaved a c := by
  obtain ⟨h1, h2⟩ := h
  obtain ⟨g1, g2⟩ := g
  refine ⟨by grind, fun hn => ?_⟩
  have e := h2 hn
  rw [← e]
  refine g2 fun hb => ?_
  rw [hb] at e
  cases ha : a.endpoints with
  | none => exact hn ha
  | some x => rw [ha] at e; cases e

/-- C105: manufacturer, product and endpoints of a node, once known, are the same for ever, also after the program
was started again, however often. -/
theorem C105_known_for_ever (db : DB) (s t : CSt) (h : Life db s) (ha : After db s t) (id : Int) (n : Node)
    (hn : s.nodes.get id = some n) : ∃ n', t.nodes.get id = some n' ∧ KeepsSaved n n' := by
  induction ha with
  | now => exact ⟨n, hn, fun _ => ⟨rfl, rfl, rfl, rfl⟩, fun _ => rfl⟩
  | @step t t' l ha hl hs ih =>
    obtain ⟨n', h1, h2⟩ := ih
    have hlf := after_life h ha
    rw [nodes_get, Option.map_eq_some_iff] at h1
    obtain ⟨r, h3, rfl⟩ := h1
    have hc := (life_inv hlf).1
    refine ⟨_, by rw [nodes_get, list_same hc hs h3]; rfl, keepsSaved_trans h2 ?_⟩
    show KeepsSaved (t.heap r).node (t'.heap r).node
    have hlt := (hc.list id r h3).1
    rcases applied_step hlt hs with ⟨h4, -⟩ | ⟨l', h4, -⟩
    · rw [h4]; exact ⟨fun _ => ⟨rfl, rfl, rfl, rfl⟩, fun _ => rfl⟩
    · obtain ⟨k1, k2, k3⟩ := keeps_step (life_seek hlf r hlt) h4
      exact ⟨k2, fun hn => by rw [k3 hn]⟩
  | @restart t c o o' f ha hc ih =>
    obtain ⟨n', h1, h2⟩ := ih
    obtain ⟨c', g1, g2, -⟩ := C48_restored db t (after_life h ha) o o' f
    rw [hc] at g1
    injection g1 with _ g1
    subst g1
    obtain ⟨n2, g3, g4⟩ := g2 id n' h1
    exact ⟨n2, g3, keepsSaved_trans h2 (restored_keeps g4)⟩

theorem loads_nodes : ∀ (ns : List Node) {s : CSt} (ref : Nat),
    (∀ n, ns[ref]? = some n → s.nHeap + ref < (s.loadNodes ns).nHeap ∧
      (s.loadNodes ns).heap (s.nHeap + ref) = NSt.start { n.link with hasConn := true }) ∧
    ∀ r, r < s.nHeap → r < (s.loadNodes ns).nHeap ∧ (s.loadNodes ns).heap r = s.heap r
  | [], s, ref => ⟨fun n hn => by simp at hn, fun r hr => ⟨hr, rfl⟩⟩
  | m :: ns, s, ref => by
    have e1 : (s.loadNode m).nHeap = s.nHeap + 1 := rfl
    have e2 : (s.loadNode m).heap = updN s.heap s.nHeap (NSt.start { m.link with hasConn := true }) := rfl
    refine ⟨fun n hn => ?_, fun r hr => ?_⟩
    · cases ref with
      | zero =>
        simp only [List.getElem?_cons_zero, Option.some.injEq] at hn
        subst hn
        have := (loads_nodes ns (s := s.loadNode m) 0).2 s.nHeap (by rw [e1]; omega)
        refine ⟨this.1, this.2.trans (by rw [e2]; simp [updN])⟩
      | succ k =>
        have := (loads_nodes ns (s := s.loadNode m) k).1 n (by simpa using hn)
        rw [e1] at this
        have e : s.nHeap + 1 + k = s.nHeap + (k + 1) := by omega
        rw [e] at this
        exact this
    · have := (loads_nodes ns (s := s.loadNode m) 0).2 r (by rw [e1]; omega)
      refine ⟨this.1, this.2.trans (by rw [e2]; simp [updN, Nat.ne_of_lt hr])⟩

theorem start_nodes {f : Bool} {ns : List Node} (ref : Nat) (n : Node) (hn : ns[ref]? = some n) :
    ref < (start f ns).nHeap ∧ (start f ns).heap ref = NSt.start { n.link with hasConn := true } := by
  have := (loads_nodes ns (s := newController f) ref).1 n hn
  simpa [newController, start] using this

/-- C105: a node whose manufacturer and endpoints were in the file is never asked for them. -/
theorem C105_loaded_not_asked (db : DB) (f : Bool) (ns : List Node) (hg : GoodFile ns) (s : CSt) (hr : CReach db f ns s)
    (ref : Nat) (n : Node) (hn : ns[ref]? = some n) :
    (n.manufacturer ≠ none → timesAsked (some .manufacturer) (s.heap ref).hist = 0 ∧
      (s.heap ref).node.manufacturer = n.manufacturer ∧ (s.heap ref).node.brand = n.brand) ∧
    (n.endpoints ≠ none → timesAsked (some .endpoints) (s.heap ref).hist = 0 ∧
      (s.heap ref).node.endpoints = n.link.endpoints) := by
  have h0 := (start_nodes (f := f) ref n hn)
  obtain ⟨ls, hls⟩ := hr
  have hr0 : CReach db f ns (start f ns) := ⟨[], rfl⟩
  have a := C105_not_asked_again db f ns hg _ s hr0 ls hls ref h0.1
  have b := C105_known_stays db f ns hg _ s hr0 ls hls ref h0.1
  rw [h0.2] at a b
  obtain ⟨-, a2, a3⟩ := a
  obtain ⟨-, b2, b3⟩ := b
  refine ⟨fun h => ⟨a2 h, (b2 h).1, (b2 h).2.1⟩, fun h => ?_⟩
  have h' : (NSt.start { n.link with hasConn := true }).node.endpoints ≠ none := by
    intro h1
    have h1 : n.endpoints.map _ = none := h1
    rw [Option.map_eq_none_iff] at h1
    exact h h1
  exact ⟨a3 h', b3 h'⟩

/-! ### Examples -/

/-- The steps of a complete identification of node 2 in a controller. -/
def ctlIdent : List CLabel := discOne ++ ((demoIdent 2).drop 1).dropLast.map (.node 0)

/-- In a complete identification the manufacturer is known before the end, and each thing is asked once. -/
example : ∃ s s', CReach demoDB true [] s ∧ 0 < s.nHeap ∧ (s.heap 0).node.manufacturer = some demoMan ∧
    (s.heap 0).node.protocolInfo ≠ none ∧ (s.heap 0).node.endpoints = none ∧
    cRun demoDB s (ctlIdent.drop 18) = some s' ∧ (s'.heap 0).node.identified = true ∧
    (s'.heap 0).node.endpoints ≠ none ∧ timesAsked (some .manufacturer) (s'.heap 0).hist = 1 ∧
    timesAsked (some .endpoints) (s'.heap 0).hist = 1 ∧ timesAsked none (s'.heap 0).hist = 1 := by
  have h : ((cRun demoDB (start true []) (ctlIdent.take 18)).map fun s =>
      decide (0 < s.nHeap ∧ (s.heap 0).node.manufacturer = some demoMan ∧ (s.heap 0).node.protocolInfo ≠ none ∧
        (s.heap 0).node.endpoints = none ∧
        ((cRun demoDB s (ctlIdent.drop 18)).map fun s' =>
          decide ((s'.heap 0).node.identified = true ∧
    (s'.heap 0).node.endpoints ≠ none ∧ timesAsked (some .manufacturer) (s'.heap 0).hist = 1 ∧
    timesAsked (some .endpoints) (s'.heap 0).hist = 1 ∧ timesAsked none (s'.heap 0).hist = 1)) = some true)) = some true := by
    decide +kernel
  rw [Option.map_eq_some_iff] at h
  obtain ⟨s, h1, h2⟩ := h
  obtain ⟨a, b, c, d, e⟩ := of_decide_eq_true h2
  rw [Option.map_eq_some_iff] at e
  obtain ⟨s', e1, e2⟩ := e
  exact ⟨s, s', ⟨_, h1⟩, a, b, c, d, e1, of_decide_eq_true e2⟩

/-- A node as it is read from the file of a program that had identified it. -/
def knownNode : Node :=
  { newNode 2 with hasConn := true, manufacturer := some demoMan, brand := cs! "B", endpoints := some [] }

/-- It is identified again, without being asked for what was in the file. -/
example : GoodFile [knownNode] ∧ ((cRun demoDB (start true [knownNode]) ([.startDisc, .disc (.nodes [true, true])] ++
      List.replicate 3 d ++ [go, .ident 0 (.info (demoInfo true)), go, go, go, go, go, go, go, go, go, go, go, go, go, go, go].map (.node 0))).map fun s =>
    decide ((s.heap 0).node.identified = true ∧ (s.heap 0).node.brand = cs! "B" ∧
      timesAsked (some .manufacturer) (s.heap 0).hist = 0 ∧ timesAsked none (s.heap 0).hist = 1)) = some true :=
  ⟨⟨by intro n hn; simp at hn; subst hn; exact ⟨rfl, rfl, rfl, rfl, rfl⟩, by simp⟩, by decide +kernel⟩

end Verif.Props
