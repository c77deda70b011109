import Verif.Lemmas.PersistSave
import Verif.Lemmas.JsonFuel
import Verif.Props.Ctl

/-
C48 – C50, C79 – C82: the configuration file.
-/

set_option linter.unusedSimpArgs false

namespace Verif.Props

open Verif.Go Verif.Model Verif.Model.Tables Verif.Spec Verif.Lemmas.Persist Verif.Lemmas.Ctl

/-! ## Example -/

/-- Go ranges over maps in the order in which they are written down here. -/
def inOrder : Order := ⟨fun l => l, fun _ => .refl _⟩

/-- Or the other way round. -/
def backwards : Order := ⟨fun l => l.reverse, fun l => List.reverse_perm l⟩

/-- Node 2 with a temperature of -1.5 degrees, switched on, with one endpoint. -/
def richNode : Node :=
  { newNode 2 with
    isAwake := true
    manufacturer := some { manufacturer := cs! "0086", type := cs! "0003", id := cs! "0062" }
    brand := cs! "Æ \"x\""
    classes := some [{ id := 0x25, inNIF := true, secure := false, nonSecure := false, version := cs! "1" }]
    endpoints := some [{ id := 1, classes := none, stateBool := some [], stateFloat := none, linked := true }]
    stateBool := some [(cs! "on", true), (cs! "alarm", false)]
    stateFloat := some [(cs! "temperature_c", -3 / 2), (cs! "x", 1 / 10000000)] }

/-- The text of a file, as `json.MarshalIndent` writes it. -/
example : saveText [(2, richNode)] = cs! "{\n\t\"Nodes\": {\n\t\t\"2\": {\n\t\t\t\"id\": 2,\n\t\t\t\"is_awake\": true,\n\t\t\t\"ManufacurerSpecific\": {\n\t\t\t\t\"manufacturer\": \"0086\",\n\t\t\t\t\"type\": \"0003\",\n\t\t\t\t\"id\": \"0062\"\n\t\t\t},\n\t\t\t\"Brand\": \"Æ \\\"x\\\"\",\n\t\t\t\"Product\": \"\",\n\t\t\t\"Description\": \"\",\n\t\t\t\"CommandClasses\": [\n\t\t\t\t{\n\t\t\t\t\t\"ID\": 37,\n\t\t\t\t\t\"InNIF\": true,\n\t\t\t\t\t\"Secure\": false,\n\t\t\t\t\t\"NonSecure\": false,\n\t\t\t\t\t\"Version\": \"1\"\n\t\t\t\t}\n\t\t\t],\n\t\t\t\"Endpoints\": [\n\t\t\t\t{\n\t\t\t\t\t\"Id\": 1,\n\t\t\t\t\t\"CommandClasses\": null,\n\t\t\t\t\t\"StateBool\": {},\n\t\t\t\t\t\"StateFloat\": null\n\t\t\t\t}\n\t\t\t],\n\t\t\t\"StateBool\": {\n\t\t\t\t\"alarm\": false,\n\t\t\t\t\"on\": true\n\t\t\t},\n\t\t\t\"StateFloat\": {\n\t\t\t\t\"temperature_c\": -1.5,\n\t\t\t\t\"x\": 1e-7\n\t\t\t}\n\t\t}\n\t}\n}" := by
  decide +kernel

theorem richSavable : Savable richNode where
  id := by decide
  mapB := by intro m hm; injection hm with hm; subst hm; decide
  mapF := by intro m hm; injection hm with hm; subst hm; decide
  dec := by
    intro m hm; injection hm with hm; subst hm
    intro e he
    simp at he
    rcases he with rfl | rfl
    · exact ⟨-15000000, by decide +kernel, by decide⟩
    · exact ⟨1, by decide +kernel, by decide⟩
  eps := by
    intro es hm; injection hm with hm; subst hm
    intro e he
    simp at he
    subst he
    exact ⟨by decide, fun m hm => (by injection hm with hm; subst hm; simp), fun m hm => (by cases hm),
      fun m hm => (by cases hm)⟩

theorem richList : ListOk [(2, richNode), (3, newNode 3)] :=
  ⟨by decide, by intro e he; simp at he; rcases he with rfl | rfl <;> rfl,
   by intro e he; simp at he; rcases he with rfl | rfl
      · exact richSavable
      · exact savable_new (id := 3) (by decide)⟩

theorem repOn_decoded : Decoded repOn := ⟨0x25, 0x03, [0xFF], rfl⟩

theorem life_run {db : DB} : ∀ (ls : List CLabel) {s s' : CSt}, Life db s → (∀ l ∈ ls, SensibleC l) →
    cRun db s ls = some s' → Life db s' := by
  intro ls
  induction ls with
  | nil => intro s s' h _ hr; cases hr; exact h
  | cons l ls ih =>
    intro s s' h hl hr
    rw [cRun] at hr
    cases hs : cStep db s l with
    | none => rw [hs] at hr; cases hr
    | some s1 => rw [hs] at hr; exact ih (.step h (hl l (by simp)) hs) (fun x hx => hl x (by simp [hx])) hr

/-- A controller that has discovered node 2 and heard that it is on; in its second life. -/
theorem demoLife : ∃ s c, Life demoDB s ∧ Life demoDB c ∧ s.nodes.length = 1 ∧
    (∃ n, s.nodes.get 2 = some n ∧ n.stateBool = some [(kOn, true)]) ∧
    loadConfig inOrder backwards (some (saveText s.nodes)) (newController true) = .ret false c := by
  have h : ∃ s, cRun demoDB (newController true) (discOne ++ deliverOne 0 repOn) = some s ∧ s.nodes.length = 1 ∧
      ∃ n, s.nodes.get 2 = some n ∧ n.stateBool = some [(kOn, true)] := ⟨_, rfl, rfl, _, rfl, rfl⟩
  obtain ⟨s, hs, h1, h2⟩ := h
  have hl : Life demoDB s := by
    refine life_run _ (.first true) ?_ hs
    intro l hl
    simp [discOne, deliverOne, d] at hl
    rcases hl with rfl | rfl | rfl | rfl | rfl
    · trivial
    · show (2 : Nat) < 2 ^ 63
      decide
    · trivial
    · exact repOn_decoded
    · trivial
  obtain ⟨c, hc, _⟩ := round_trip inOrder backwards (life_ok hl) true
  exact ⟨s, c, hl, .restart _ _ _ hl hc, h1, h2, hc⟩

/-! ## C48 -/

/-- C48: Loading what was saved succeeds and restores every node of the controller, with its id,
identification, classes, endpoints and states, and no other node. It makes no difference in which order Go
ranges over maps, nor how often the program was started before. -/
theorem C48_restored (db : DB) (s : CSt) (h : Life db s) (o o' : Order) (f : Bool) :
    ∃ c, loadConfig o o' (some (saveText s.nodes)) (newController f) = .ret false c ∧
      (∀ id n, s.nodes.get id = some n → ∃ n', c.nodes.get id = some n' ∧ Restored n n') ∧
      ∀ id, s.nodes.get id = none → c.nodes.get id = none :=
  round_trip o o' (life_ok h) f

/-- C48: The same for any list of nodes whose numbers are decimals (also if the nodes were encoded at
different times, while the program went on). -/
theorem C48_any_list (l : GoMap Int Node) (h : ListOk l) (o o' : Order) (f : Bool) :
    ∃ c, loadConfig o o' (some (saveText l)) (newController f) = .ret false c ∧
      (∀ id n, l.get id = some n → ∃ n', c.nodes.get id = some n' ∧ Restored n n') ∧
      ∀ id, l.get id = none → c.nodes.get id = none :=
  round_trip o o' h f

/-- C48: Different nodes are saved differently: the text determines the nodes. -/
theorem C48_text_determines_nodes (l l' : GoMap Int Node) (h : ListOk l) (h' : ListOk l') (e : saveText l = saveText l')
    (id : Int) (n n' : Node) (hn : l.get id = some n) (hn' : l'.get id = some n') :
    n.brand = n'.brand ∧ n.classes = n'.classes ∧ n.manufacturer = n'.manufacturer ∧
    SameMap n.stateBool n'.stateBool ∧ SameMap n.stateFloat n'.stateFloat := by
  obtain ⟨c, hc, h1, -⟩ := round_trip inOrder inOrder h true
  obtain ⟨c', hc', h2, -⟩ := round_trip inOrder inOrder h' true
  rw [e, hc'] at hc
  injection hc with _ hc
  subst hc
  obtain ⟨a, ha, ra⟩ := h1 id n hn
  obtain ⟨b, hb, rb⟩ := h2 id n' hn'
  rw [ha] at hb
  injection hb with hb
  subst hb
  have key : ∀ {ν : Type} {x y z : Option (GoMap (List Char) ν)}, SameMap x z → SameMap y z → SameMap x y := by
    intro ν x y z
    cases x <;> cases y <;> cases z <;> simp only [SameMap] <;>
      first | (intros; contradiction) | (intros; trivial) | (intro h1 h2 k; rw [h1 k, h2 k])
  exact ⟨ra.brand.symm.trans rb.brand, ra.classes.symm.trans rb.classes, ra.manufacturer.symm.trans rb.manufacturer,
    key ra.stateBool rb.stateBool, key ra.stateFloat rb.stateFloat⟩

example : ∃ s, Life demoDB s ∧ s.nodes.length = 1 := by
  obtain ⟨s, c, h1, h2, h3, h4, h5⟩ := demoLife
  exact ⟨s, h1, h3⟩

example : ∃ l, ListOk l ∧ l.length = 2 := ⟨_, richList, rfl⟩

/-! ## C49 -/

/-- C49: The exact set of what a crash can leave: the old contents, or a beginning of the new text. -/
theorem C49_crash_contents_partial (o : Order) (text : List Char) (old : Option (List Char)) (ops : List SaveOp)
    (s : SaveSt) (h : saveRun o text ⟨.compare, old⟩ ops = some s) :
    s.file = old ∨ ∃ p q, s.file = some p ∧ p ++ q = text := by
  have hi := saveInv_run ops (show Lemmas.Persist.SaveInv text old ⟨.compare, old⟩ from rfl) h
  revert hi
  unfold Lemmas.Persist.SaveInv
  cases s.at_ with
  | compare => exact .inl
  | create => exact .inl
  | panicked => exact .inl
  | write rest => rintro ⟨p, h1, h2⟩; exact .inr ⟨p, rest, h1, h2⟩
  | done b =>
    cases b with
    | true => intro h1; exact .inr ⟨text, [], h1, by simp⟩
    | false =>
      rintro (h1 | ⟨p, h1, r, _, h2⟩)
      · exact .inl h1
      · exact .inr ⟨p, r, h1, h2⟩

/-- C49: Each of these does occur. -/
theorem C49_every_prefix_occurs (o : Order) (p q : List Char) (old : Option (List Char))
    (hold : readConfig o old ≠ .panic) :
    ∃ s, saveRun o (p ++ q) ⟨.compare, old⟩ [.go, .go, .put p.length] = some s ∧ s.file = some p := by
  simp [saveRun, compare_go hold, saveStep]

/-- C49: When the save has written everything, the file holds the new configuration and nothing else. -/
theorem C49_complete_save (o : Order) (text : List Char) (old : Option (List Char)) (ops : List SaveOp) (s : SaveSt)
    (h : saveRun o text ⟨.compare, old⟩ ops = some s) (hd : s.at_ = .done true) : s.file = some text := by
  have hi := saveInv_run ops (show Lemmas.Persist.SaveInv text old ⟨.compare, old⟩ from rfl) h
  unfold Lemmas.Persist.SaveInv at hi
  rw [hd] at hi
  exact hi

/-- C49 does not hold: whatever the file held before, a crash can leave any strict beginning of the new text,
and loading any of these fails. Both configurations are lost. -/
theorem C49_violated_crash_loses_both (l : GoMap Int Node) (o : Order) (old : Option (List Char))
    (hold : readConfig o old ≠ .panic) (p q : List Char) (hp : p ++ q = saveText l) (hq : q ≠ []) :
    ∃ ops st, saveRun o (saveText l) ⟨.compare, old⟩ ops = some st ∧ st.file = some p ∧
      ∀ o1 o2 c, loadConfig o1 o2 st.file c = .ret true c := by
  obtain ⟨st, h1, h2⟩ := C49_every_prefix_occurs o p q old hold
  refine ⟨_, st, hp ▸ h1, h2, ?_⟩
  intro o1 o2 c
  rw [h2]
  exact load_prefix o1 o2 l hp hq c

/-- The old file is one that can be loaded, the new one is not empty. -/
example : ∃ s : CSt, Life demoDB s ∧ readConfig inOrder (some (saveText s.nodes)) ≠ .panic ∧
    ∃ q, q ≠ [] ∧ [] ++ q = saveText s.nodes := by
  obtain ⟨s, c, h1, h2, h3, h4, h5⟩ := demoLife
  refine ⟨s, h1, ?_, saveText s.nodes, ?_, rfl⟩
  · obtain ⟨ns, -, hr⟩ := read_saved inOrder (life_ok h1)
    rw [hr]; intro h; cases h
  · unfold saveText controllerJson jObj JMems.ofList
    simp [Json.print]

/-! ## C50 -/

/-- C50: A load that returns an error has changed nothing. -/
theorem C50_failed_load_changes_nothing (o o' : Order) (file : Option (List Char)) (c c' : CSt)
    (h : loadConfig o o' file c = .ret true c') : c' = c := by
  unfold loadConfig at h
  split at h
  · injection h with _ h; exact h.symm
  all_goals first
    | (cases h; done)
    | (split at h <;> cases h)

/-- C50: If there is no file, the load returns an error. -/
theorem C50_missing_file (o o' : Order) (c : CSt) : loadConfig o o' none c = .ret true c := rfl

/-- C50: If the file is not JSON, the load returns an error. -/
theorem C50_not_json (o o' : Order) (s : List Char) (h : parseJson s = none) (c : CSt) :
    loadConfig o o' (some s) c = .ret true c := by
  unfold loadConfig readConfig
  dsimp only
  rw [h]

/-- C50: No text is refused because of the bound the parser is run with: every larger bound gives the same result. -/
theorem C50_bound_irrelevant (s : List Char) (n : Nat) (h : 2 * s.length + 2 ≤ n) :
    (pValue n s).map Prod.fst = parseJson s := by
  unfold parseJson
  rw [Verif.Lemmas.pValue_bound (by omega) h]

/-- C50: An empty or blank file is an error. -/
theorem C50_blank (o o' : Order) (ws : List Char) (h : ws.all isWs = true) (c : CSt) :
    loadConfig o o' (some ws) c = .ret true c := C50_not_json o o' ws (parse_blank h) c

/-- C50: A file that does not begin with an object or with `null` is an error. -/
theorem C50_not_an_object (o o' : Order) (ws : List Char) (x : Char) (r : List Char) (h : ws.all isWs = true)
    (hx : isWs x = false) (h1 : x ≠ '{') (h2 : ¬ (x = 'n' ∧ ['u', 'l', 'l'].isPrefixOf r = true)) (c : CSt) :
    loadConfig o o' (some (ws ++ x :: r)) c = .ret true c := load_not_object o o' h hx h1 h2 c

/-- C50: A saved file that lost its end is an error. -/
theorem C50_truncated (o o' : Order) (l : GoMap Int Node) (p q : List Char) (e : p ++ q = saveText l) (hq : q ≠ [])
    (c : CSt) : loadConfig o o' (some p) c = .ret true c := load_prefix o o' l e hq c

/-- A number instead of an object; an object with a number for the nodes; a text for an id. -/
example (c : CSt) : loadConfig inOrder inOrder (some (cs! " 17")) c = .ret true c := by
  have h : readConfig inOrder (some (cs! " 17")) = .err := by decide +kernel
  unfold loadConfig; rw [h]
example (c : CSt) : loadConfig inOrder inOrder (some (cs! "{\"Nodes\": 3}")) c = .ret true c := by
  have h : readConfig inOrder (some (cs! "{\"Nodes\": 3}")) = .err := by decide +kernel
  unfold loadConfig; rw [h]
example (c : CSt) : loadConfig inOrder inOrder (some (cs! "{\"Nodes\": {\"2\": {\"id\": \"x\"}}}")) c = .ret true c := by
  have h : readConfig inOrder (some (cs! "{\"Nodes\": {\"2\": {\"id\": \"x\"}}}")) = .err := by decide +kernel
  unfold loadConfig; rw [h]

/-! ## C79 -/

/-- What `SaveConfigurationToFile` returns, controller.go 157: `nil`, always (`some true` would be an error). -/
def saveReturns : SaveAt → Option Bool
  | .done _ => some false
  | _ => none

/-- C79 does not hold: the file cannot be created, or the disk is full; `SaveConfigurationToFile` returns nil,
but the file is the old one, or none, or cannot be loaded. -/
theorem C79_violated_failure_not_reported (l : GoMap Int Node) (o : Order) (old : Option (List Char))
    (hold : readConfig o old ≠ .panic) :
    (∃ ops st, saveRun o (saveText l) ⟨.compare, old⟩ ops = some st ∧ saveReturns st.at_ = some false ∧
      st.file = old) ∧
    ∃ ops st, saveRun o (saveText l) ⟨.compare, old⟩ ops = some st ∧ saveReturns st.at_ = some false ∧
      ∀ o1 o2 c, loadConfig o1 o2 st.file c = .ret true c := by
  constructor
  · exact ⟨[.go, .fail], _, by rw [saveRun, compare_go hold]; rfl, rfl, rfl⟩
  · have hne : ∃ x r, saveText l = x :: r := ⟨'{', _, rfl⟩
    obtain ⟨x, r, hx⟩ := hne
    refine ⟨[.go, .go, .fail], ⟨.done false, some []⟩, ?_, rfl, ?_⟩
    · rw [saveRun, compare_go hold, hx]; rfl
    · intro o1 o2 c
      exact load_prefix o1 o2 l (p := []) (q := saveText l) rfl (by rw [hx]; simp) c

/-- C79: What is true: the save succeeded exactly if the file holds the text, unless it held the text
before. -/
theorem C79_success_partial (o : Order) (text : List Char) (old : Option (List Char)) (ops : List SaveOp) (s : SaveSt)
    (h : saveRun o text ⟨.compare, old⟩ ops = some s) (b : Bool) (hd : s.at_ = .done b) (hold : old ≠ some text) :
    b = true ↔ s.file = some text := by
  have hi := saveInv_run ops (show Lemmas.Persist.SaveInv text old ⟨.compare, old⟩ from rfl) h
  unfold Lemmas.Persist.SaveInv at hi
  rw [hd] at hi
  cases b with
  | true => exact ⟨fun _ => hi, fun _ => rfl⟩
  | false =>
    refine ⟨fun h => (by cases h), fun hf => ?_⟩
    rcases hi with h1 | ⟨p, h1, r, h2, h3⟩
    · exact absurd (h1.symm.trans hf) hold
    · rw [h1] at hf
      injection hf with hf
      rw [hf] at h3
      exact absurd (List.append_right_eq_self.1 h3) h2

/-! ## C80 -/

/-- C80 does not hold: these files make the program panic while it loads them. -/
theorem C80_violated_load_panics (o o' : Order) (c : CSt) :
    loadConfig o o' (some (cs! "{}")) c = .panic ∧
    loadConfig o o' (some (cs! "null")) c = .panic ∧
    loadConfig o o' (some (cs! "{\"Nodes\": null}")) c = .panic ∧
    loadConfig o o' (some (cs! "{\"Nodes\": {\"5\": null}}")) c = .panic ∧
    loadConfig o o' (some (cs! "{\"Nodes\": {\"5\": {\"Endpoints\": [null]}}}")) c = .panic := by
  have one : ∀ {α : Type} (x : α), o.run [x] = [x] := fun x => List.perm_singleton.1 (o.perm [x])
  have h1 : readConfig o (some (cs! "{}")) = .nilNodes := rfl
  have h2 : readConfig o (some (cs! "null")) = .nilController := rfl
  have h3 : readConfig o (some (cs! "{\"Nodes\": null}")) = .nilNodes := rfl
  have h4 : readConfig o (some (cs! "{\"Nodes\": {\"5\": null}}")) = .panic := by
    show (match addAll [] (o.run [none]) with | .error _ => ReadRes.panic | .ok m => .nodes m) = _
    rw [one]; rfl
  have h5 : readConfig o (some (cs! "{\"Nodes\": {\"5\": {\"Endpoints\": [null]}}}")) = .panic := by
    show (match addAll [] (o.run [_]) with | .error _ => ReadRes.panic | .ok m => .nodes m) = _
    rw [one]; rfl
  refine ⟨?_, ?_, ?_, ?_, ?_⟩ <;> (unfold loadConfig; simp only [h1, h2, h3, h4, h5])

/-- C80: Exactly these files: `null`; an object without nodes; a node or an endpoint that is `null`. -/
theorem C80_panics_exactly (o o' : Order) (file : List Char) (c : CSt) :
    loadConfig o o' (some file) c = .panic ↔ ∃ j, parseJson file = some j ∧ Poison j := load_panic

/-- C80 does not hold later either: this file is loaded without an error, and the first report of the node
makes the program panic (its maps are nil). -/
theorem C80_violated_report_panics (db : DB) : ∃ c c', loadConfig inOrder inOrder
      (some (cs! "{\"Nodes\": {\"5\": {\"id\": 5}}}")) (newController true) = .ret false c ∧
    cRun db c [.arrive 5 repOn, .deliver 0, .deliver 0, .deliver 0] = some c' ∧ c'.crashed = some .nilMap := by
  have h : readConfig inOrder (some (cs! "{\"Nodes\": {\"5\": {\"id\": 5}}}")) =
      .nodes [(5, { id := 5, isAwake := false, manufacturer := none, brand := [], product := [], description := [],
                    classes := none, endpoints := none, stateBool := none, stateFloat := none })] := by decide +kernel
  refine ⟨_, _, by unfold loadConfig; rw [h]; rfl, rfl, rfl⟩

/-- C80: Files the program wrote itself do not make it panic, not even after a crash while saving. -/
theorem C80_own_files_partial (db : DB) (s : CSt) (hs : Life db s) (o o1 o2 : Order) (old : Option (List Char))
    (ho : ∀ c, loadConfig o1 o2 old c ≠ .panic) (ops : List SaveOp) (st : SaveSt)
    (h : saveRun o (saveText s.nodes) ⟨.compare, old⟩ ops = some st) (f : Bool) :
    loadConfig o1 o2 st.file (newController f) ≠ .panic := by
  rcases C49_crash_contents_partial o _ old ops st h with h1 | ⟨p, q, h1, h2⟩
  · rw [h1]; exact ho _
  · rw [h1]
    by_cases hq : q = []
    · subst hq
      rw [List.append_nil] at h2
      rw [h2]
      obtain ⟨c, hc, -⟩ := C48_restored db s hs o1 o2 f
      rw [hc]; intro h; cases h
    · rw [load_prefix o1 o2 s.nodes h2 hq]
      intro h; cases h

/-- C80: Saving panics too, if the file was changed in the meantime and has a node that is `null`. -/
theorem C80_violated_save_panics (o : Order) (text : List Char) :
    saveRun o text ⟨.compare, some (cs! "{\"Nodes\": {\"5\": null}}")⟩ [.go] =
      some ⟨.panicked, some (cs! "{\"Nodes\": {\"5\": null}}")⟩ := by
  have one : ∀ {α : Type} (x : α), o.run [x] = [x] := fun x => List.perm_singleton.1 (o.perm [x])
  have h4 : readConfig o (some (cs! "{\"Nodes\": {\"5\": null}}")) = .panic := by
    show (match addAll [] (o.run [none]) with | .error _ => ReadRes.panic | .ok m => .nodes m) = _
    rw [one]; rfl
  unfold saveRun saveStep
  dsimp only
  rw [h4]
  rfl

/-! ## C81 -/

/-- C81: After loading, the queue holds the announcements of the first ten nodes, in the order in which they
were added. -/
theorem C81_first_ten (f : Bool) (ns : List Node) :
    ((newController f).loadNodes ns).queue = (ns.take 10).map fun n => Event.discovered n.id := by
  rw [loads_queue _ _ (Nat.zero_le _)]
  rfl

/-- C81: If there are no more than ten nodes, each of them is announced. -/
theorem C81_announced_partial (db : DB) (s : CSt) (h : Life db s) (hn : s.nodes.length ≤ 10) (o o' : Order) (f : Bool)
    (c : CSt) (hc : loadConfig o o' (some (saveText s.nodes)) (newController f) = .ret false c) (id : Int) (n : Node)
    (hg : s.nodes.get id = some n) : Event.discovered id ∈ c.queue := by
  obtain ⟨ns, hp, hl⟩ := load_saved o o' (life_ok h) (newController f)
  rw [hl] at hc
  injection hc with _ hc
  subst hc
  have hlen : ns.length ≤ 10 := by
    have := hp.length_eq
    rw [List.length_map] at this
    omega
  rw [C81_first_ten, List.take_of_length_le (by simpa using hlen)]
  have hm := get_mem hg
  have hid := (life_ok h).own _ hm
  have hin : n ∈ ns := hp.mem_iff.2 (List.mem_map.2 ⟨_, hm, rfl⟩)
  refine List.mem_map.2 ⟨reread n, List.mem_map_of_mem hin, ?_⟩
  show Event.discovered n.id = _
  rw [hid]

/-- C81 does not hold: with more than ten nodes some are not announced, and never will be: nobody can take
events before the load has ended, and discovery announces only nodes that are not in the list. -/
theorem C81_violated_eleven (l : GoMap Int Node) (h : ListOk l) (hn : 10 < l.length) (o o' : Order) (f : Bool) :
    ∃ c, loadConfig o o' (some (saveText l)) (newController f) = .ret false c ∧ c.queue.length = 10 ∧
      ∃ id n, c.nodes.get id = some n ∧ Event.discovered id ∉ c.queue := by
  obtain ⟨c, hc, h1, h2⟩ := round_trip o o' h f
  obtain ⟨ns, hp, hl⟩ := load_saved o o' h (newController f)
  have e : c = (newController f).loadNodes (ns.map reread) := by
    rw [hl] at hc; injection hc with _ hc; exact hc.symm
  have hlen : 10 < ns.length := by
    have := hp.length_eq
    rw [List.length_map] at this
    omega
  refine ⟨c, hc, ?_, ?_⟩
  · rw [e, C81_first_ten]
    simp
    omega
  · have hids := ids_nodup h hp
    have hlast : ns[10]? = some ns[10] := List.getElem?_eq_getElem hlen
    obtain ⟨x, hx, hxe⟩ := List.mem_map.1 (hp.mem_iff.1 (List.getElem_mem hlen))
    have hgx := mem_get h.nodup hx
    obtain ⟨n', hn', -⟩ := h1 x.1 x.2 hgx
    refine ⟨x.1, n', hn', ?_⟩
    rw [e, C81_first_ten]
    intro hm
    obtain ⟨m, hm, he⟩ := List.mem_map.1 hm
    rw [← List.map_take] at hm
    obtain ⟨m', hm', rfl⟩ := List.mem_map.1 hm
    injection he with he
    have hid : m'.id = (ns[10]).id := by
      rw [← hxe, h.own x hx]; exact he
    obtain ⟨i, hi, hie⟩ := List.mem_take_iff_getElem.1 hm'
    have hlt : i < 10 := by omega
    have := List.pairwise_iff_getElem.1 hids i 10 (by simp; omega) (by simpa using hlen) hlt
    apply this
    rw [List.getElem_map, List.getElem_map, hie, hid]

/-- A list of eleven nodes. -/
example : ∃ l, ListOk l ∧ 10 < l.length := by
  refine ⟨(List.range 11).map fun (i : Nat) => ((i : Int) + 2, newNode ((i : Int) + 2)), ⟨by decide, ?_, ?_⟩, by decide⟩
  · intro e he
    obtain ⟨i, hi, rfl⟩ := List.mem_map.1 he
    rfl
  · intro e he
    obtain ⟨i, hi, rfl⟩ := List.mem_map.1 he
    have := List.mem_range.1 hi
    exact savable_new (id := (i : Int) + 2) (by omega)

/-! ## C82 -/

/-- C82: Saving what was loaded writes the same file again, character for character. -/
theorem C82_stable (db : DB) (s : CSt) (h : Life db s) (o o' : Order) (f : Bool) (c : CSt)
    (hc : loadConfig o o' (some (saveText s.nodes)) (newController f) = .ret false c) :
    saveText c.nodes = saveText s.nodes := stable o o' (life_ok h) f hc

/-- C82: The text does not depend on the order in which Go ranges over the list. -/
theorem C82_order_irrelevant (l l' : GoMap Int Node) (h : ListOk l) (hp : l.Perm l') : saveText l = saveText l' :=
  saveText_perm hp h

example : ∃ s c, Life demoDB s ∧ loadConfig inOrder backwards (some (saveText s.nodes)) (newController true) = .ret false c := by
  obtain ⟨s, c, h1, -, -, -, h⟩ := demoLife
  exact ⟨s, c, h1, h⟩

end Verif.Props
