import Verif.Spec.Reported
import Verif.Props.Sleep
import Verif.Props.Known

/-
C116: the states shown of nodes and of endpoints.
-/

set_option linter.unusedSimpArgs false
set_option linter.unusedVariables false
set_option maxHeartbeats 4000000

namespace Verif.Props

open Verif.Go Verif.Model Verif.Model.Conn Verif.Spec Verif.Lemmas Verif.Lemmas.Conn Verif.Lemmas.Ctl Verif.Lemmas.NodeM
  Verif.Lemmas.EndToEnd Verif.Lemmas.System Verif.Lemmas.Process

variable {lv : LoopVars} {db : DB} {f : Bool} {ns : List Node} {ls : List WLabel} {w : Whole} {xs : List Session}

/-! ### Nodes -/

/-- A node keeps the id that it had in the file. -/
theorem begun_id {s : CSt} (hr : CReach db f ns s) {ref : Nat} {m : Node} (hm : ns[ref]? = some m) : (s.heap ref).node.id = m.id := by
  obtain ⟨h1, h2⟩ := start_nodes (f := f) ref m hm
  obtain ⟨ls, hr⟩ := hr
  have := crun_induct (db := db) (P := fun t => ref < t.nHeap ∧ (t.heap ref).node.id = m.id)
    (fun s l s' hp hs => by
      obtain ⟨k1, k2⟩ := heap_id hp.1 hs
      exact ⟨k1, k2.trans hp.2⟩) ls _ _ ⟨h1, by rw [h2]; rfl⟩ hr
  exact this.2

theorem lastSaid_from {α : Type} {says : Report → Option α} {before : Option α} {rs : List Report} {x : α}
    (h : lastSaid says before rs = some x) : before = some x ∨ ∃ r ∈ rs, says r = some x := by
  unfold lastSaid at h
  split at h
  · next v hv =>
    obtain ⟨r, h1, h2⟩ := List.exists_of_findSome?_eq_some hv
    cases h
    exact .inr ⟨r, by simpa using h1, h2⟩
  · exact .inl h

/-- What was applied to a listed node was on the wire, from that node. -/
theorem applied_listed (hg : GoodFile ns) (h : runSteps (wStep lv db) (wStart f ns) ls = some w) (hx : Arrived ls xs)
    (hc : w.sys.conn.crashed = none) {id : Int} {ref : Nat} (hl : w.sys.ctl.list.get id = some ref) {r : Report}
    (hr : r ∈ appliedTo ref w.sys.ctl.hist) : ∃ b : UInt8, (b.toNat : Int) = id ∧ ∃ fr ∈ onWire xs, IsReport fr b r := by
  obtain ⟨-, hctl⟩ := Verif.Lemmas.Process.run_parts h
  obtain ⟨k, hk⟩ := appliedTo_mem.1 hr
  obtain ⟨b, h1, h2⟩ := applied_wire hg h hx hc hk
  exact ⟨b, by rw [← h1]; exact ((cinv hg hctl).list id ref hl).2, h2⟩

/-- C116: a boolean state shown of a node is from the file, or a report on the wire, from that very node, said so. -/
theorem C116_bool (hg : GoodFile ns) (h : runSteps (wStep lv db) (wStart f ns) ls = some w) (hx : Arrived ls xs)
    (hc : w.sys.conn.crashed = none) {id : Int} {ref : Nat} (hl : w.sys.ctl.list.get id = some ref) {key : List Char}
    (hk : key ≠ "alarm".toList) {x : Bool} (hs : boolState (w.sys.ctl.heap ref).node key = some x) :
    (∃ n ∈ ns, n.id = id ∧ boolState n key = some x) ∨
      ∃ b : UInt8, (b.toNat : Int) = id ∧ ∃ fr ∈ onWire xs, ∃ r, IsReport fr b r ∧ saysBool r key = some x := by
  obtain ⟨-, hctl⟩ := Verif.Lemmas.Process.run_parts h
  obtain ⟨h1, h2⟩ := (cinv hg hctl).list id ref hl
  obtain ⟨n, hb, e1, -⟩ := C45_state_from_own_reports db f ns hg _ hctl ref h1
  rw [e1 key hk] at hs
  rcases lastSaid_from hs with e | ⟨r, hr, e⟩
  · rcases hb with ⟨m, hm, k1, -, -⟩ | ⟨-, k1, -⟩
    · refine .inl ⟨m, List.mem_of_getElem? hm, ?_, ?_⟩
      · rw [← begun_id hctl hm]; exact h2
      · unfold boolState at *; rw [← k1]; exact e
    · unfold boolState at e; rw [k1] at e; cases e
  · obtain ⟨b, g1, fr, g2, g3⟩ := applied_listed hg h hx hc hl hr
    exact .inr ⟨b, g1, fr, g2, r, g3, e⟩

/-- C116: the same for numbers. -/
theorem C116_float (hg : GoodFile ns) (h : runSteps (wStep lv db) (wStart f ns) ls = some w) (hx : Arrived ls xs)
    (hc : w.sys.conn.crashed = none) {id : Int} {ref : Nat} (hl : w.sys.ctl.list.get id = some ref) {key : List Char}
    (hk : key ≠ "alarm".toList) (hk' : key ≠ "alarmLastType".toList) {x : Rat}
    (hs : floatState (w.sys.ctl.heap ref).node key = some x) :
    (∃ n ∈ ns, n.id = id ∧ floatState n key = some x) ∨
      ∃ b : UInt8, (b.toNat : Int) = id ∧ ∃ fr ∈ onWire xs, ∃ r, IsReport fr b r ∧ saysFloat r key = some x := by
  obtain ⟨-, hctl⟩ := Verif.Lemmas.Process.run_parts h
  obtain ⟨h1, h2⟩ := (cinv hg hctl).list id ref hl
  obtain ⟨n, hb, -, e1⟩ := C45_state_from_own_reports db f ns hg _ hctl ref h1
  rw [e1 key hk hk'] at hs
  rcases lastSaid_from hs with e | ⟨r, hr, e⟩
  · rcases hb with ⟨m, hm, -, k1, -⟩ | ⟨-, -, k1⟩
    · refine .inl ⟨m, List.mem_of_getElem? hm, ?_, ?_⟩
      · rw [← begun_id hctl hm]; exact h2
      · unfold floatState at *; rw [← k1]; exact e
    · unfold floatState at e; rw [k1] at e; cases e
  · obtain ⟨b, g1, fr, g2, g3⟩ := applied_listed hg h hx hc hl hr
    exact .inr ⟨b, g1, fr, g2, r, g3, e⟩

/-- C116 for switches, in bytes: a node is shown as on or off because of the file or because it said so itself, in a frame of
its own and not in one of its endpoints. -/
theorem C116_on (hg : GoodFile ns) (h : runSteps (wStep lv db) (wStart f ns) ls = some w) (hx : Arrived ls xs)
    (hc : w.sys.conn.crashed = none) {id : Int} {ref : Nat} (hl : w.sys.ctl.list.get id = some ref) {x : Bool}
    (hs : boolState (w.sys.ctl.heap ref).node "on".toList = some x) :
    (∃ n ∈ ns, n.id = id ∧ boolState n "on".toList = some x) ∨
      ∃ b : UInt8, (b.toNat : Int) = id ∧ ∃ fr ∈ onWire xs, WireOn fr b x := by
  rcases C116_bool hg h hx hc hl (by decide) hs with g | ⟨b, g1, fr, g2, g3⟩
  · exact .inl g
  · exact .inr ⟨b, g1, fr, g2, (wireOn_iff fr b x).2 g3⟩

/-- C116 for levels, in bytes. -/
theorem C116_level (hg : GoodFile ns) (h : runSteps (wStep lv db) (wStart f ns) ls = some w) (hx : Arrived ls xs)
    (hc : w.sys.conn.crashed = none) {id : Int} {ref : Nat} (hl : w.sys.ctl.list.get id = some ref) {q : Rat}
    (hs : floatState (w.sys.ctl.heap ref).node "level".toList = some q) :
    (∃ n ∈ ns, n.id = id ∧ floatState n "level".toList = some q) ∨
      ∃ b : UInt8, (b.toNat : Int) = id ∧ ∃ fr ∈ onWire xs, ∃ n : Nat, q = n ∧ WireLevel fr b n := by
  rcases C116_float hg h hx hc hl (by decide) (by decide) hs with g | ⟨b, g1, fr, g2, g3⟩
  · exact .inl g
  · exact .inr ⟨b, g1, fr, g2, (wireLevel_iff fr b q).2 g3⟩

theorem sensor_named (t : UInt8) : SensorName t (sensorTypeString t) := by
  obtain ⟨h1, -, h2⟩ := C19_documented_names
  by_cases h : t.toNat = 0 ∨ 31 < t.toNat
  · exact .inr ⟨h, (h2 t).2 h⟩
  · have hlt : t.toNat - 1 < sensorNames.length := by omega
    refine .inl ⟨by omega, _, List.getElem?_eq_getElem hlt, (h2 t).1 _ (List.getElem?_eq_getElem hlt) (by omega)⟩

theorem sensor_type {t c : UInt8} {rest : List UInt8} {s : SensorMultiLevel} (h : newSensorMultiLevel (t :: c :: rest) = .ok s) :
    s.valueType = t := by
  unfold newSensorMultiLevel at h
  simp only at h
  split at h
  · cases h
  · cases h; rfl

/-- The frames that say something about a sensor. -/
theorem wireSensor_of {fr : List UInt8} {b : UInt8} {key : List Char} {q : Rat} {r : Report} (h : IsReport fr b r)
    (hs : saysFloat r key = some q) (hk : key ≠ "level".toList) : WireSensor fr b key q ∨ BadSensor fr b := by
  obtain ⟨cls, cmd, p, hc, hr⟩ := h
  have hkd := (C15_dispatch cls cmd p (kindOf r)).1 ⟨r, hr, rfl⟩
  cases r <;> simp only [saysFloat, reduceCtorEq, if_neg hk] at hs
  case sensorMultiLevel s =>
    obtain ⟨h1, t, c, rest, rfl, h2⟩ := hkd
    simp [kindOf, classTable] at h1
    obtain ⟨rfl, rfl⟩ := h1
    by_cases hsz : c.toNat % 8 = 1 ∨ c.toNat % 8 = 2 ∨ c.toNat % 8 = 4
    · obtain ⟨s', v, e1, e2, e3, -⟩ := C17_sensor_value t c rest hsz h2
      have hr' : newSensorMultiLevel (t :: c :: rest) = .ok s := by
        have : newReport 0x31 0x05 (t :: c :: rest) = (newSensorMultiLevel (t :: c :: rest)).map .sensorMultiLevel := rfl
        rw [this, e1] at hr
        rw [e1]
        simp [Except.map] at hr
        rw [hr]
      rw [hr'] at e1
      cases e1
      split at hs
      · next he =>
        cases hs
        refine .inl ⟨t, c, rest, v, s.typeString, s.unit, hc, hsz, h2, e2, e3, ?_, he⟩
        rw [(sensor_strings hr').1, sensor_type hr']
        exact sensor_named t
      · cases hs
    · exact .inr ⟨t, c, rest, hc, hsz⟩

/-- C116 for sensors, in bytes: the reading shown under a key is from the file, or the node itself sent it.  What is missing: a
report whose value has a size that does not exist is shown too, as 0 (C18). -/
theorem C116_sensor_partial (hg : GoodFile ns) (h : runSteps (wStep lv db) (wStart f ns) ls = some w) (hx : Arrived ls xs)
    (hc : w.sys.conn.crashed = none) {id : Int} {ref : Nat} (hl : w.sys.ctl.list.get id = some ref) {key : List Char}
    (hk : key ≠ "level".toList ∧ key ≠ "alarm".toList ∧ key ≠ "alarmLastType".toList) {q : Rat}
    (hs : floatState (w.sys.ctl.heap ref).node key = some q) :
    (∃ n ∈ ns, n.id = id ∧ floatState n key = some q) ∨
      ∃ b : UInt8, (b.toNat : Int) = id ∧ ∃ fr ∈ onWire xs, WireSensor fr b key q ∨ BadSensor fr b := by
  rcases C116_float hg h hx hc hl hk.2.1 hk.2.2 hs with g | ⟨b, g1, fr, g2, r, g3, g4⟩
  · exact .inl g
  · exact .inr ⟨b, g1, fr, g2, wireSensor_of g3 g4 hk.1⟩

/-! ### Endpoints -/

/-- C116: a command of an endpoint is no report to the library, so that it is never taken for one of the node itself. -/
theorem C116_endpoint_not_node {fr : List UInt8} {b e cls cmd : UInt8} {p : List UInt8} (h : FromEndpoint fr b e cls cmd p)
    (b' : UInt8) (r : Report) : ¬ IsReport fr b' r := by
  obtain ⟨dst, ty, rx, n, rest, ⟨L, ck, rfl, -, -⟩, hn, hr⟩ := h
  rintro ⟨cls', cmd', p', ⟨ty', rx', n', rest', ⟨L', ck', he, -, -⟩, hn', hr'⟩, hk⟩
  simp only [List.cons_append, List.cons.injEq, true_and] at he
  obtain ⟨-, -, -, rfl, -, rfl, rfl, -⟩ := he
  have := (C15_dispatch 0x60 0x0D p' (kindOf r)).1 ⟨r, hk, rfl⟩
  simp [Announces, classTable] at this

theorem eps_step {P : Endpoint → Prop} (h0 : ∀ (n : Node) k, ∀ e ∈ n.makeEndpoints k, P e) {n n' : NSt} {l : NLabel}
    (h : nodeStep db n l = some n') (hp : ∀ es, n.node.endpoints = some es → ∀ e ∈ es, P e) :
    ∀ es, n'.node.endpoints = some es → ∀ e ∈ es, P e := by
  intro es he e hm
  rcases eps_from h he with k | k | ⟨i, m, -, -, k⟩
  · exact hp es k e hm
  · rw [k] at hm; cases hm
  · rw [k] at hm; exact h0 _ _ e hm

/-- Where the states of an endpoint come from. -/
def EpFrom (ns : List Node) (id : Int) (e : Endpoint) : Prop :=
  (e.stateBool = some [] ∧ e.stateFloat = some []) ∨
    ∃ n ∈ ns, n.id = id ∧ ∃ es', n.endpoints = some es' ∧ ∃ e' ∈ es', e'.id = e.id ∧ e'.stateBool = e.stateBool ∧ e'.stateFloat = e.stateFloat

/-- C116: what is shown of an endpoint never changes.  It is what the file says of an endpoint of the node with the same number,
or nothing. -/
theorem C116_endpoint_states (hg : GoodFile ns) {s : CSt} (hr : CReach db f ns s) {id : Int} {ref : Nat}
    (hl : s.list.get id = some ref) {es : List Endpoint} (he : (s.heap ref).node.endpoints = some es) {e : Endpoint} (hm : e ∈ es) :
    (e.stateBool = some [] ∧ e.stateFloat = some []) ∨
      ∃ n ∈ ns, n.id = id ∧ ∃ es', n.endpoints = some es' ∧ ∃ e' ∈ es', e'.id = e.id ∧ e'.stateBool = e.stateBool ∧ e'.stateFloat = e.stateFloat := by
  obtain ⟨h1, h2⟩ := (cinv hg hr).list id ref hl
  obtain ⟨cs, hr⟩ := hr
  have key := crun_induct (db := db)
    (P := fun t => ∀ r, r < t.nHeap → ∀ es, (t.heap r).node.endpoints = some es → ∀ e ∈ es, EpFrom ns (t.heap r).node.id e)
    (fun s l s' hp hs r hlt es he e hm => by
      rcases Nat.lt_or_ge r s.nHeap with hlt' | hge
      · rw [(heap_id hlt' hs).2]
        rcases heap_ident hlt' hs with ⟨k, -⟩ | ⟨l', k, -⟩
        · rw [k] at he
          exact hp r hlt' es he e hm
        · refine eps_step (P := EpFrom ns (s.heap r).node.id) (fun n k e hm => .inl ?_) k (hp r hlt') es he e hm
          simp only [Node.makeEndpoints, List.mem_map] at hm
          obtain ⟨j, -, rfl⟩ := hm
          exact ⟨rfl, rfl⟩
      · obtain ⟨i, k⟩ := Verif.Lemmas.Process.heap_new hge hlt hs
        rw [k] at he
        cases he) cs _ _ (fun r hlt es he e hm => by
      obtain ⟨n, hn, k⟩ := (begun_start f ns).heap r hlt
      rw [k] at he ⊢
      simp only [NSt.start, Node.link, Option.map_eq_some_iff] at he
      obtain ⟨es', k1, rfl⟩ := he
      rw [List.mem_map] at hm
      obtain ⟨e', k2, rfl⟩ := hm
      exact .inr ⟨n, hn, rfl, es', k1, e', k2, rfl, rfl, rfl⟩) hr
  have := key ref h1 es he e hm
  rw [h2] at this
  exact this

/-! ### A run: node 2 has two endpoints and the first says that it is on -/

def jEpOn : List UInt8 := [1, 13, 0, 4, 0, 2, 7, 96, 13, 1, 0, 37, 3, 255, 70]
def jNodeOn : List UInt8 := [1, 9, 0, 4, 0, 2, 3, 37, 3, 255, 42]
/-- 21.5 degrees. -/
def jTemp : List UInt8 := [1, 12, 0, 4, 0, 2, 6, 49, 5, 1, 34, 0, 215, 51]

def jls5 : List WLabel := jls ++ jls4 ++ jRead jEpOn [] 3

def jwP : Whole := (runSteps (wStep .perIteration demoDB) (wStart false []) jls5).getD (wStart false [])

theorem jwP_run : runSteps (wStep .perIteration demoDB) (wStart false []) jls5 = some jwP := by
  have : (runSteps (wStep .perIteration demoDB) (wStart false []) jls5).isSome := by decide +kernel
  rw [Option.isSome_iff_exists] at this
  obtain ⟨w, hw⟩ := this
  rw [hw, jwP, hw]
  rfl

/-- Then the node itself says that it is on, and then which temperature it measures. -/
def jls6 : List WLabel :=
  jls5 ++ jRead jNodeOn [] 4 ++ jt [.deliver 2, .deliver 2, .deliver 2] ++ jRead jTemp [] 4 ++ jt [.deliver 3, .deliver 3, .deliver 3]

def jwQ : Whole := (runSteps (wStep .perIteration demoDB) (wStart false []) jls6).getD (wStart false [])

theorem jwQ_run : runSteps (wStep .perIteration demoDB) (wStart false []) jls6 = some jwQ := by
  have : (runSteps (wStep .perIteration demoDB) (wStart false []) jls6).isSome := by decide +kernel
  rw [Option.isSome_iff_exists] at this
  obtain ⟨w, hw⟩ := this
  rw [hw, jwQ, hw]
  rfl

def jSessionP : Session := [jDisc, jInfo, jManu, jEps, jEpOn].map fun fr => (⟨[.frame fr], none⟩, ⟨fr, true, 0⟩, [])
def jSessionQ : Session := jSessionP ++ [jNodeOn, jTemp].map fun fr => (⟨[.frame fr], none⟩, ⟨fr, true, 0⟩, [])

theorem jOkP : ∀ b ∈ jSessionP, b ∈ jSessionE ∨ b = (⟨[.frame jEpOn], none⟩, ⟨jEpOn, true, 0⟩, []) := by
  intro b hb
  simp [jSessionP, jSessionE] at hb ⊢
  rcases hb with hb | hb | hb | hb | hb <;> simp [hb]

theorem jSessionP_ok : jSessionP.Ok := by
  intro b hb
  rcases jOkP b hb with hb | rfl
  · exact jArrivedE.2 jSessionE (by simp) b hb
  · refine ⟨⟨?_, by simp⟩, by simp, by decide⟩
    intro t ht; simp at ht; subst ht
    exact ⟨[0, 4, 0, 2, 7, 96, 13, 1, 0, 37, 3, 255], ⟨13, 70, rfl, rfl, by decide⟩,
      .inl ⟨0, 0, 2, 7, [96, 13, 1, 0, 37, 3, 255], rfl, by decide, by decide, by decide⟩⟩

theorem jArrivedP : Arrived jls5 [jSessionP, []] := by
  refine ⟨by decide +kernel, fun x hx => ?_⟩
  simp at hx
  rcases hx with rfl | rfl
  · exact jSessionP_ok
  · intro b hb; cases hb

theorem jArrivedQ : Arrived jls6 [jSessionQ, []] := by
  refine ⟨by decide +kernel, fun x hx => ?_⟩
  simp at hx
  rcases hx with rfl | rfl
  case inr => intro b hb; cases hb
  intro b hb
  simp only [jSessionQ, List.mem_append, List.map_cons, List.map_nil, List.mem_cons, List.not_mem_nil, or_false] at hb
  rcases hb with hb | rfl | rfl
  · exact jSessionP_ok b hb
  · refine ⟨⟨?_, by simp⟩, by simp, by decide⟩
    intro t ht; simp at ht; subst ht
    exact ⟨[0, 4, 0, 2, 3, 37, 3, 255], ⟨9, _, rfl, rfl, by decide⟩, .inl ⟨0, 0, 2, 3, [37, 3, 255], rfl, by decide, by decide, by decide⟩⟩
  · refine ⟨⟨?_, by simp⟩, by simp, by decide⟩
    intro t ht; simp at ht; subst ht
    exact ⟨[0, 4, 0, 2, 6, 49, 5, 1, 34, 0, 215], ⟨12, _, rfl, rfl, by decide⟩,
      .inl ⟨0, 0, 2, 6, [49, 5, 1, 34, 0, 215], rfl, by decide, by decide, by decide⟩⟩

theorem jwP_facts : jwP.sys.conn.crashed = none ∧ jwP.sys.ctl.list.get 2 = some 0 ∧
    boolState (jwP.sys.ctl.heap 0).node "on".toList = none ∧
    (jwP.sys.ctl.heap 0).node.endpoints.map (fun es => es.map Endpoint.id) = some [1] := by decide +kernel

theorem jwQ_facts : jwQ.sys.conn.crashed = none ∧ jwQ.sys.ctl.list.get 2 = some 0 ∧
    boolState (jwQ.sys.ctl.heap 0).node "on".toList = some true ∧
    floatState (jwQ.sys.ctl.heap 0).node "temperature_c".toList = some (43 / 2) := by decide +kernel

example : ∃ b : UInt8, (b.toNat : Int) = 2 ∧ ∃ fr ∈ onWire [jSessionQ, []], WireOn fr b true := by
  rcases C116_on noFileGood jwQ_run jArrivedQ jwQ_facts.1 jwQ_facts.2.1 jwQ_facts.2.2.1 with ⟨_, h, -⟩ | h
  · cases h
  · exact h

example : ∃ b : UInt8, (b.toNat : Int) = 2 ∧ ∃ fr ∈ onWire [jSessionQ, []],
    WireSensor fr b "temperature_c".toList (43 / 2) ∨ BadSensor fr b := by
  rcases C116_sensor_partial noFileGood jwQ_run jArrivedQ jwQ_facts.1 jwQ_facts.2.1 (by decide) jwQ_facts.2.2.2 with ⟨_, h, -⟩ | h
  · cases h
  · exact h

theorem jEpOn_says : EndpointOn jEpOn 2 1 true := ⟨255, ⟨0, 0, 0, 7, [], ⟨13, 70, rfl, rfl, by decide⟩, by decide, by decide⟩, by decide⟩

/-- The endpoint's report is not the node's. -/
example (x : Bool) : ¬ WireOn jEpOn 2 x := fun h => by
  obtain ⟨r, h, -⟩ := (wireOn_iff _ _ _).1 h
  obtain ⟨v, h', -⟩ := jEpOn_says
  exact C116_endpoint_not_node h' 2 r h

/-- C116, violated for endpoints: an endpoint that the library knows of says that it is on, and that is shown nowhere: not of
the node, and not of the endpoint, whatever happens afterwards. -/
theorem C116_violated_endpoint : ∃ (ls : List WLabel) (w : Whole) (xs : List Session) (fr : List UInt8),
    runSteps (wStep .perIteration demoDB) (wStart false []) ls = some w ∧ Arrived ls xs ∧ w.sys.conn.crashed = none ∧
    fr ∈ onWire xs ∧ EndpointOn fr 2 1 true ∧ w.sys.ctl.list.get 2 = some 0 ∧
    boolState (w.sys.ctl.heap 0).node "on".toList = none ∧
    (w.sys.ctl.heap 0).node.endpoints.map (fun es => es.map Endpoint.id) = some [1] ∧
    ∀ ls' w', runSteps (wStep .perIteration demoDB) w ls' = some w' →
      ∀ id ref, w'.sys.ctl.list.get id = some ref →
        ∀ es, (w'.sys.ctl.heap ref).node.endpoints = some es → ∀ e ∈ es, e.stateBool = some [] := by
  refine ⟨jls5, jwP, _, jEpOn, jwP_run, jArrivedP, jwP_facts.1, by decide, jEpOn_says, jwP_facts.2.1, jwP_facts.2.2.1,
    jwP_facts.2.2.2, fun ls' w' h id ref hl es he e hm => ?_⟩
  have hrun : runSteps (wStep .perIteration demoDB) (wStart false []) (jls5 ++ ls') = some w' := by
    rw [runSteps_append, jwP_run]; exact h
  obtain ⟨-, h2⟩ := Verif.Lemmas.Process.run_parts hrun
  rcases C116_endpoint_states noFileGood h2 hl he hm with g | ⟨_, g, -⟩
  · exact g.1
  · cases g

/-- A file may hold states of endpoints; those are shown for ever. -/
example : ∃ s, CReach demoDB false [{ fileNodeEp with endpoints := some [⟨1, some [], some [("on".toList, true)], some [], false⟩] }] s ∧
    s.list.get 2 = some 0 ∧ (s.heap 0).node.endpoints.map (fun es => es.map Endpoint.stateBool) = some [some [("on".toList, true)]] :=
  ⟨_, ⟨[], rfl⟩, by decide +kernel, by decide +kernel⟩

end Verif.Props
