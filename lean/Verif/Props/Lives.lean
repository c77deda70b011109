import Verif.Spec.Lives
import Verif.Lemmas.Lives
import Verif.Props.AlarmWire
import Verif.Props.Shown

/-
C117: over any number of restarts, what is shown of a node was said on the wire.
-/

set_option linter.unusedSimpArgs false
set_option linter.unusedVariables false
set_option maxHeartbeats 4000000

namespace Verif.Props

open Verif.Go Verif.Model Verif.Model.Conn Verif.Spec Verif.Lemmas Verif.Lemmas.Conn Verif.Lemmas.Ctl Verif.Lemmas.NodeM
  Verif.Lemmas.EndToEnd Verif.Lemmas.System Verif.Lemmas.Process Verif.Lemmas.Persist Verif.Lemmas.Lives

variable {lv : LoopVars} {db : DB} {f : Bool} {ns : List Node} {ls : List WLabel} {w : Whole} {xs : List Session}
  {All : List UInt8 → Prop}

/-! ### Alarms of one node -/

theorem alarm_from (ls : List NLabel) : ∀ s s', WakeInv s → nodeRun db s ls = some s' → s'.crashed = none →
    (getB s'.node kAlarm = some true → getB s.node kAlarm = some true ∨ ∃ a, Report.alarm a ∈ reportsOf ls ∧ a.status = 0xFF) ∧
    (∀ q, getF s'.node kAlarm = some q → q ≠ 0 → getF s.node kAlarm = some q ∨ ∃ r ∈ reportsOf ls, saysLastType r = some q) := by
  induction ls with
  | nil => intro s s' hw h hc; cases h; exact ⟨.inl, fun q h _ => .inl h⟩
  | cons l ls ih =>
    intro s s' hw h hc
    simp only [nodeRun] at h
    cases hl : nodeStep db s l with
    | none => rw [hl] at h; cases h
    | some s1 =>
      rw [hl] at h
      have hc1 : s1.crashed = none := by
        cases ls with
        | nil => cases h; exact hc
        | cons l' ls =>
          simp only [Option.bind_some, nodeRun] at h
          cases h2 : nodeStep db s1 l' with
          | none => rw [h2] at h; cases h
          | some s2 => exact crashed_mono h2
      obtain ⟨i1, i2⟩ := ih s1 s' (wake_step hw hl) h hc
      have later : ∀ r, r ∈ reportsOf ls → r ∈ reportsOf (l :: ls) := by
        intro r hr
        unfold reportsOf at hr ⊢
        rw [List.filterMap_cons]
        split
        · exact hr
        · exact List.mem_cons_of_mem _ hr
      have now : ∀ r, l = .report r → r ∈ reportsOf (l :: ls) := by
        rintro r rfl
        simp [reportsOf]
      constructor
      · intro hb
        rcases i1 hb with g | ⟨a, g1, g2⟩
        · rcases step_alarm hw hl hc1 with ⟨a, e, e2, -, -⟩ | ⟨j, -, -, e, -⟩ | ⟨e, -⟩
          · exact .inr ⟨a, now _ e, e2⟩
          · rw [(alarmOff_ok e).2.1 kAlarm, if_pos rfl] at g; cases g
          · exact .inl (e ▸ g)
        · exact .inr ⟨a, later _ g1, g2⟩
      · intro q hq hz
        rcases i2 q hq hz with g | ⟨r, g1, g2⟩
        · rcases step_alarm hw hl hc1 with ⟨a, e, e2, e3, -⟩ | ⟨j, -, -, e, -⟩ | ⟨-, e, -⟩
          · rw [(alarmOn_ok e3).2.2 kAlarm] at g
            split at g
            · next ht =>
              refine .inr ⟨_, now _ e, ?_⟩
              simp [saysLastType, e2, ht.1]
              simpa using g
            · exact .inl g
          · rw [(alarmOff_ok e).2.2 kAlarm, if_pos rfl] at g
            cases g
            exact absurd rfl hz
          · exact .inl (e ▸ g)
        · exact .inr ⟨r, later _ g1, g2⟩

/-- An alarm shown of a node was in the file or the node has said so. -/
theorem alarm_own (hg : GoodFile ns) {s : CSt} (hr : CReach db f ns s) (ref : Nat) (hlt : ref < s.nHeap) : ∃ n, beginsAs ns ref n ∧
    (boolState (s.heap ref).node "alarm".toList = some true → boolState n "alarm".toList = some true ∨
      ∃ a, Report.alarm a ∈ appliedTo ref s.hist ∧ a.status = 0xFF) ∧
    (∀ q, floatState (s.heap ref).node "alarm".toList = some q → q ≠ 0 → floatState n "alarm".toList = some q ∨
      ∃ r ∈ appliedTo ref s.hist, saysLastType r = some q) := by
  obtain ⟨n, hn, ls, e1, e2⟩ := (bornInv hg hr).born ref hlt
  have hok := ((cinv hg hr).safe ref hlt).ok
  have e3 : reportsOf ls = appliedTo ref s.hist := by
    rw [← e2]; unfold reportsOf
    congr 1
  obtain ⟨h1, h2⟩ := alarm_from ls _ _ (wakeInv_start n) e1 hok
  rw [e3] at h1 h2
  refine ⟨n, ?_, h1, h2⟩
  rcases hn with ⟨h3, id, rfl⟩ | ⟨m, hm, rfl⟩
  · exact .inr ⟨h3, rfl, rfl⟩
  · exact .inl ⟨m, hm, rfl, rfl, rfl⟩

theorem raises_of {fr : List UInt8} {b : UInt8} {a : Alarm} (h : IsReport fr b (.alarm a)) (hs : a.status = 0xFF) : RaisesAlarm fr b := by
  obtain ⟨cls, cmd, p, hc, hr⟩ := h
  obtain ⟨h1, h2⟩ := (C15_dispatch cls cmd p .alarm).1 ⟨_, hr, rfl⟩
  simp [classTable] at h1
  obtain ⟨rfl, rfl⟩ := h1
  have h' : (newAlarm p).map Report.alarm = .ok (.alarm a) := hr
  match p, h' with
  | t :: l :: src :: st :: y :: ev :: rest, h' =>
    cases h'
    simp only at hs
    subst hs
    exact ⟨t, l, src, y, ev, rest, hc⟩
  | [t, l], h' => cases h'; simp at hs
  | [t, l, _], h' => cases h'; simp at hs
  | [t, l, _, _], h' => cases h'; simp at hs
  | [t, l, _, _, _], h' => cases h'; simp at hs
  | [_], h' => cases h'
  | [], h' => cases h'

/-! ### What is true of a node that is shown, in every life -/

structure Grounded (db : DB) (All : List UInt8 → Prop) (n : Node) : Prop where
  named : ∃ k : Nat, n.id = k ∧ 2 ≤ k ∧ k ≤ 232 ∧ ∃ fr, All fr ∧ NamesNode fr k
  bool : ∀ key x, key ≠ "alarm".toList → boolState n key = some x →
    Said All n.id fun fr b => ∃ r, IsReport fr b r ∧ saysBool r key = some x
  float : ∀ key x, key ≠ "alarm".toList → key ≠ "alarmLastType".toList → floatState n key = some x →
    Said All n.id fun fr b => ∃ r, IsReport fr b r ∧ saysFloat r key = some x
  alarm : boolState n "alarm".toList = some true → Said All n.id RaisesAlarm
  alarmType : ∀ q, floatState n "alarm".toList = some q → q ≠ 0 →
    Said All n.id fun fr b => ∃ t : UInt8, q = t.toNat ∧ WireAlarm fr b t
  lastType : ∀ q, floatState n "alarmLastType".toList = some q →
    Said All n.id fun fr b => ∃ t : UInt8, q = t.toNat ∧ WireAlarm fr b t
  manu : ∀ m, n.manufacturer = some m → Said All n.id fun fr b => IsReport fr b (.manufacturerSpecific m)
  prod : (n.brand = [] ∧ n.product = [] ∧ n.description = []) ∨
    ∃ m t p d, Said All n.id (fun fr b => SaysProduct fr b m t p) ∧ db.device m t p = some d ∧ n.brand = d.brand ∧
      n.product = d.product ∧ n.description = d.description
  eps : ∀ es, n.endpoints = some es → es = [] ∨
    ∃ k, Said All n.id (fun fr b => SaysEndpoints fr b k) ∧ es.length = k - 1 ∧
      ∀ j : Nat, j < es.length → (es.map Endpoint.id)[j]? = some ((j + 1 : Nat) : Int)
  blank : ∀ es, n.endpoints = some es → ∀ e ∈ es, e.stateBool = some [] ∧ e.stateFloat = some []
  awake : n.isAwake = true → (∃ fr, All fr ∧ SaysListening fr) ∨ Said All n.id OfWakeUpClass

/-- The ids of nodes that were not in the file. -/
theorem named_range (h : runSteps (wStep lv db) (wStart f ns) ls = some w) (hx : Arrived ls xs) (hc : w.sys.conn.crashed = none)
    {id : Int} (hn : Named w.sys.ctl id) : ∃ k : Nat, id = k ∧ 2 ≤ k ∧ k ≤ 232 ∧ ∃ fr ∈ onWire xs, NamesNode fr k := by
  obtain ⟨bm, e1, e2⟩ := hn
  obtain ⟨fr, g1, g2, m, g3, g4, -⟩ := told_wire h hx hc ((winv h).reply bm e1)
  obtain ⟨k, k1, k2⟩ := nodes_frame g2 g3 g4 e2
  have hlen : bm.length ≤ 232 := by
    obtain ⟨body, hf, -⟩ := g2
    obtain ⟨-, n, part, -, -, ed⟩ := nodes_msg (lone_new hf g3) g4
    rcases Nat.lt_or_ge part.vis.length 6 with hlt | hge
    · rw [(C14_discovery_bitmap part.vis).1 hlt] at ed; cases ed
    rcases Nat.lt_or_ge 29 part.vis.length with hlt | hge'
    · obtain ⟨p, e⟩ := (C14_discovery_bitmap part.vis).2.1 hlt
      rw [e] at ed; cases ed
    obtain ⟨a, e, el, -⟩ := (C14_discovery_bitmap part.vis).2.2 hge hge'
    rw [e] at ed
    cases ed
    omega
  obtain ⟨i, h1, h2, h3⟩ := e2
  have := (List.getElem?_eq_some_iff.1 h2).1
  exact ⟨k, k1, by omega, by omega, fr, g1, k2⟩

theorem applied_said (hg : GoodFile ns) (h : runSteps (wStep lv db) (wStart f ns) ls = some w) (hx : Arrived ls xs)
    (hc : w.sys.conn.crashed = none) (ha : ∀ fr ∈ onWire xs, All fr) {id : Int} {ref : Nat} (hl : w.sys.ctl.list.get id = some ref)
    {r : Report} (hr : r ∈ appliedTo ref w.sys.ctl.hist) : Said All id fun fr b => IsReport fr b r := by
  obtain ⟨b, h1, fr, h2, h3⟩ := applied_listed hg h hx hc hl hr
  exact ⟨b, h1, fr, ha fr h2, h3⟩

theorem said_imp {id : Int} {P Q : List UInt8 → UInt8 → Prop} (h : Said All id P) (hi : ∀ fr b, P fr b → Q fr b) : Said All id Q := by
  obtain ⟨b, h1, fr, h2, h3⟩ := h
  exact ⟨b, h1, fr, h2, hi fr b h3⟩

/-- What is known of a node of the file is still known of the node in the list. -/
theorem grounded_now (hg : GoodFile ns) (hn : ∀ n ∈ ns, Grounded db All n)
    (h : runSteps (wStep lv db) (wStart f ns) ls = some w) (hx : Arrived ls xs) (hc : w.sys.conn.crashed = none)
    (ha : ∀ fr ∈ onWire xs, All fr) {id : Int} {ref : Nat} (hl : w.sys.ctl.list.get id = some ref) :
    Grounded db All (w.sys.ctl.heap ref).node := by
  obtain ⟨-, hctl⟩ := Verif.Lemmas.Process.run_parts h
  obtain ⟨h1, h2⟩ := (cinv hg hctl).list id ref hl
  have hnamed : ∃ k : Nat, id = k ∧ 2 ≤ k ∧ k ≤ 232 ∧ ∃ fr, All fr ∧ NamesNode fr k := by
    rcases (namedInv hctl).ids ref h1 with ⟨n, e1, e2⟩ | e
    · rw [← h2, ← e2]; exact (hn n e1).named
    · rw [h2] at e
      obtain ⟨k, k1, k2, k3, fr, k4, k5⟩ := named_range h hx hc e
      exact ⟨k, k1, k2, k3, fr, ha fr k4, k5⟩
  have hid : id % 256 = id ∧ id % 256 ≠ 0 := by
    obtain ⟨k, k1, k2, k3, -⟩ := hnamed
    omega
  have ag := fun {r : Report} => applied_said (All := All) hg h hx hc ha hl (r := r)
  have file : ∀ n0, beginsAs ns ref n0 → (∃ m ∈ ns, m.id = id ∧ n0.stateBool = m.stateBool ∧ n0.stateFloat = m.stateFloat) ∨
      (n0.stateBool = some [] ∧ n0.stateFloat = some []) := by
    rintro n0 (⟨m, hm, k1, k2, -⟩ | ⟨-, k1, k2⟩)
    · exact .inl ⟨m, List.mem_of_getElem? hm, by rw [← begun_id hctl hm]; exact h2, k1, k2⟩
    · exact .inr ⟨k1, k2⟩
  constructor
  · rw [h2]; exact hnamed
  · intro key x hk hs
    rw [h2]
    rcases C116_bool hg h hx hc hl hk hs with ⟨n, e1, e2, e3⟩ | ⟨b, e1, fr, e2, e3⟩
    · rw [← e2]; exact (hn n e1).bool key x hk e3
    · exact ⟨b, e1, fr, ha fr e2, e3⟩
  · intro key x hk hk' hs
    rw [h2]
    rcases C116_float hg h hx hc hl hk hk' hs with ⟨n, e1, e2, e3⟩ | ⟨b, e1, fr, e2, e3⟩
    · rw [← e2]; exact (hn n e1).float key x hk hk' e3
    · exact ⟨b, e1, fr, ha fr e2, e3⟩
  · intro hs
    rw [h2]
    obtain ⟨n0, hb, k, -⟩ := alarm_own hg hctl ref h1
    rcases k hs with e | ⟨a, e1, e2⟩
    · rcases file n0 hb with ⟨m, m1, m2, m3, -⟩ | ⟨m3, -⟩
      · rw [← m2]; exact (hn m m1).alarm (by unfold boolState at *; rw [← m3]; exact e)
      · unfold boolState at e; rw [m3] at e; cases e
    · exact said_imp (ag e1) fun fr b hr => raises_of hr e2
  · intro q hs hz
    rw [h2]
    obtain ⟨n0, hb, -, k⟩ := alarm_own hg hctl ref h1
    rcases k q hs hz with e | ⟨r, e1, e2⟩
    · rcases file n0 hb with ⟨m, m1, m2, -, m3⟩ | ⟨-, m3⟩
      · rw [← m2]; exact (hn m m1).alarmType q (by unfold floatState at *; rw [← m3]; exact e) hz
      · unfold floatState at e; rw [m3] at e; cases e
    · exact said_imp (ag e1) fun fr b hr => (wireAlarm_iff fr b q).2 ⟨r, hr, e2⟩
  · intro q hs
    rw [h2]
    obtain ⟨n0, hb, k⟩ := last_type_from_own_reports hg hctl ref h1
    rw [k] at hs
    rcases lastSaid_from hs with e | ⟨r, e1, e2⟩
    · rcases file n0 hb with ⟨m, m1, m2, -, m3⟩ | ⟨-, m3⟩
      · rw [← m2]; exact (hn m m1).lastType q (by unfold floatState at *; rw [← m3]; exact e)
      · unfold floatState at e; rw [m3] at e; cases e
    · exact said_imp (ag e1) fun fr b hr => (wireAlarm_iff fr b q).2 ⟨r, hr, e2⟩
  · intro m hm
    rw [h2]
    rcases C102_manufacturer hg h hx hc hl hid.2 hm with ⟨n, e1, e2, e3⟩ | ⟨fr, e1, b, e2, e3⟩
    · rw [← e2]; exact (hn n e1).manu m e3
    · exact ⟨b, by omega, fr, ha fr e1, e3⟩
  · rw [h2]
    rcases C110_product hg h hx hc hl hid.2 with ⟨n, e1, e2, e3, e4, e5⟩ | e | ⟨fr, e1, b, m, t, p, d, e2, e3, e4, e5⟩
    · rw [e3, e4, e5, ← e2]; exact (hn n e1).prod
    · exact .inl e
    · exact .inr ⟨m, t, p, d, ⟨b, by omega, fr, ha fr e1, e3⟩, e4, e5⟩
  · intro es he
    rw [h2]
    rcases C110_endpoints hg h hx hc hl hid.2 he with ⟨n, e1, e2, es', e3, e4⟩ | e | ⟨fr, e1, b, k, e2, e3, e4, e5⟩
    · have hle : es'.length = es.length := by simpa using congrArg List.length e4
      rcases (hn n e1).eps es' e3 with g | ⟨k, g1, g2, g3⟩
      · subst g
        exact .inl (List.eq_nil_of_length_eq_zero hle.symm)
      · exact .inr ⟨k, e2 ▸ g1, by omega, fun j hj => by rw [← e4]; exact g3 j (by omega)⟩
    · exact .inl e
    · exact .inr ⟨k, ⟨b, by omega, fr, ha fr e1, e3⟩, e4, e5⟩
  · intro es he e hm
    rcases C116_endpoint_states hg hctl hl he hm with g | ⟨n, e1, e2, es', e3, e', e4, -, e5, e6⟩
    · exact g
    · rw [← e5, ← e6]; exact (hn n e1).blank es' e3 e' e4
  · intro hs
    rw [h2]
    rcases ((sleepW h).node ref h1).now hs with ⟨n, e1, e2, e3⟩ | ⟨a, p, e1, e2⟩ | ⟨k, e1⟩
    · rw [h2] at e2
      rw [← e2]; exact (hn n e1).awake e3
    · obtain ⟨fr, g1, g2, m, g3, g4, -⟩ := told_wire h hx hc e1
      exact .inl ⟨fr, ha fr g1, p, info_frame g2 g3 g4, e2⟩
    · obtain ⟨b, e2, fr, e3, e4⟩ := applied_wire hg h hx hc e1
      exact .inr ⟨b, by rw [← e2]; exact h2, fr, ha fr e3, wake_report.1 e4⟩

/-! ### The file -/

theorem bool_reread (n : Node) (k : List Char) : boolState (reread n) k = boolState n k := by
  unfold boolState reread
  cases n.stateBool with
  | none => rfl
  | some m => exact get_sortKeys m k

theorem float_reread (n : Node) (k : List Char) : floatState (reread n) k = floatState n k := by
  unfold floatState reread
  cases n.stateFloat with
  | none => rfl
  | some m => exact get_sortKeys m k

theorem grounded_reread {n : Node} (h : Grounded db All n) : Grounded db All (reread n) where
  named := h.named
  bool key x hk hs := h.bool key x hk (by rw [← bool_reread]; exact hs)
  float key x hk hk' hs := h.float key x hk hk' (by rw [← float_reread]; exact hs)
  alarm hs := h.alarm (by rw [← bool_reread]; exact hs)
  alarmType q hs hz := h.alarmType q (by rw [← float_reread]; exact hs) hz
  lastType q hs := h.lastType q (by rw [← float_reread]; exact hs)
  manu := h.manu
  prod := h.prod
  eps es he := by
    simp only [reread, Option.map_eq_some_iff] at he
    obtain ⟨es', h1, rfl⟩ := he
    rcases h.eps es' h1 with g | ⟨k, g1, g2, g3⟩
    · subst g; exact .inl rfl
    · exact .inr ⟨k, g1, by simpa using g2, fun j hj => by simpa [Function.comp_def] using g3 j (by simpa using hj)⟩
  blank es he e hm := by
    simp only [reread, Option.map_eq_some_iff] at he
    obtain ⟨es', h1, rfl⟩ := he
    rw [List.mem_map] at hm
    obtain ⟨e', h2, rfl⟩ := hm
    obtain ⟨h3, h4⟩ := h.blank es' h1 e' h2
    simp only [h3, h4]
    exact ⟨rfl, rfl⟩
  awake := h.awake

/-- A node that may be written. -/
structure Fit (db : DB) (All : List UInt8 → Prop) (n : Node) : Prop where
  savable : Savable n
  maps : n.stateBool.isSome = true ∧ n.stateFloat.isSome = true
  grounded : Grounded db All n

/-- How a life begins. -/
def GoodBegin (db : DB) (All : List UInt8 → Prop) (c : CSt) : Prop :=
  ∃ f ns, c = start f ns ∧ GoodFile ns ∧ ∀ n ∈ ns, Savable n ∧ Grounded db All n

theorem fit_shown {c : CSt} (hb : GoodBegin db All c) {ls : List WLabel} {id : Int} {n : Node}
    (h : WasShown lv db All c ls id n) : Fit db All n ∧ n.id = id := by
  obtain ⟨f, ns, rfl, hg, hn⟩ := hb
  obtain ⟨ls1, ls2, w, xs, -, h1, h2, h3, h4, h5⟩ := h
  have h1 : runSteps (wStep lv db) (wStart f ns) ls1 = some w := h1
  rw [nodes_get, Option.map_eq_some_iff] at h5
  obtain ⟨ref, h5, rfl⟩ := h5
  obtain ⟨cls, h6, h7⟩ := sensible_run h1 h2 h3
  obtain ⟨k1, k2⟩ := savInv_run cls (cinv_start hg) (savInv_start fun n hm => (hn n hm).1) h7 h6
  obtain ⟨k3, k4⟩ := k1.list id ref h5
  exact ⟨⟨k2.heap ref k3, ⟨(k1.safe ref k3).mapB, (k1.safe ref k3).mapF⟩,
    grounded_now hg (fun n hm => (hn n hm).2) h1 h2 h3 h4 h5⟩, k4⟩

/-- What is in the file. -/
def GoodText (db : DB) (All : List UInt8 → Prop) (file : Option (List Char)) : Prop :=
  ∀ p, file = some p → ∃ q l, p ++ q = saveText l ∧ ListOk l ∧ ∀ e ∈ l, Fit db All e.2

theorem begin_none (f : Bool) : GoodBegin db All (newController f) :=
  ⟨f, [], rfl, noFileGood, by simp⟩

theorem begin_load {o o' : Order} {file : Option (List Char)} (h : GoodText db All file) {f err : Bool} {c : CSt}
    (hl : loadConfig o o' file (newController f) = .ret err c) : GoodBegin db All c := by
  cases file with
  | none =>
    rw [C50_missing_file] at hl
    cases hl
    exact begin_none f
  | some p =>
    obtain ⟨q, l, e, hok, hf⟩ := h p rfl
    by_cases hq : q = []
    · subst hq
      rw [List.append_nil] at e
      subst e
      obtain ⟨ns, hp, hl'⟩ := load_saved o o' hok (newController f)
      rw [hl'] at hl
      injection hl with _ hl
      subst hl
      have hmem : ∀ n ∈ ns, Fit db All n := by
        intro n hm
        obtain ⟨e, he, rfl⟩ := List.mem_map.1 (hp.mem_iff.1 hm)
        exact hf e he
      refine ⟨f, ns.map reread, rfl, ⟨?_, ?_⟩, ?_⟩
      · intro n hm
        obtain ⟨m, hm', rfl⟩ := List.mem_map.1 hm
        have := (hmem m hm').maps
        exact ⟨by simpa [reread] using this.1, by simpa [reread] using this.2, rfl, rfl, rfl⟩
      · rw [List.map_map]
        exact ids_nodup hok hp
      · intro n hm
        obtain ⟨m, hm', rfl⟩ := List.mem_map.1 hm
        exact ⟨savable_reread (hmem m hm').savable, grounded_reread (hmem m hm').grounded⟩
    · rw [load_prefix o o' l e hq] at hl
      injection hl with _ hl
      subst hl
      exact begin_none f

theorem lives_good {file : Option (List Char)} {c : CSt} (h : Lives lv db All file c ls) :
    GoodText db All file ∧ GoodBegin db All c := by
  induction h with
  | first f => exact ⟨(fun p hp => by cases hp), begin_none f⟩
  | run more hl hr ih => exact ih
  | @save file c ls l o ops st hl hn hs hr ih =>
    refine ⟨?_, ih.2⟩
    rcases C49_crash_contents_partial o _ _ ops st hr with e | ⟨p, q, e1, e2⟩
    · rw [e]; exact ih.1
    · intro p' hp
      rw [e1] at hp
      cases hp
      exact ⟨q, l, e2, ⟨hn, fun e he => (fit_shown ih.2 (hs e he)).2, fun e he => (fit_shown ih.2 (hs e he)).1.savable⟩,
        fun e he => (fit_shown ih.2 (hs e he)).1⟩
  | restart o o' f hl hld ih => exact ⟨ih.1, begin_load ih.1 hld⟩

/-- What is true of every node that is shown, in any life. -/
theorem grounded_shown {file : Option (List Char)} {c : CSt} (h : Lives lv db All file c ls) {id : Int} {n : Node}
    (hn : WasShown lv db All c ls id n) : Grounded db All n ∧ n.id = id :=
  ⟨(fit_shown (lives_good h).2 hn).1.grounded, (fit_shown (lives_good h).2 hn).2⟩

/-! ### C117 -/

variable {file : Option (List Char)} {c : CSt} {id : Int} {n : Node}

/-- C117: a node that is shown, in whichever life, was named in a discovery reply, in this life or in an earlier one. -/
theorem C117_nodes (h : Lives lv db All file c ls) (hn : WasShown lv db All c ls id n) :
    ∃ k : Nat, id = k ∧ 2 ≤ k ∧ k ≤ 232 ∧ ∃ fr, All fr ∧ NamesNode fr k := by
  obtain ⟨g, rfl⟩ := grounded_shown h hn
  exact g.named

/-- C117: if a node is shown as on or off, then it has said so, in this life or in an earlier one. -/
theorem C117_on (h : Lives lv db All file c ls) (hn : WasShown lv db All c ls id n) {x : Bool}
    (hs : boolState n "on".toList = some x) : Said All id fun fr b => WireOn fr b x := by
  obtain ⟨g, rfl⟩ := grounded_shown h hn
  exact said_imp (g.bool _ x (by decide) hs) fun fr b => (wireOn_iff fr b x).2

/-- C117: if a level is shown, the node has said so. -/
theorem C117_level (h : Lives lv db All file c ls) (hn : WasShown lv db All c ls id n) {q : Rat}
    (hs : floatState n "level".toList = some q) : Said All id fun fr b => ∃ k : Nat, q = k ∧ WireLevel fr b k := by
  obtain ⟨g, rfl⟩ := grounded_shown h hn
  exact said_imp (g.float _ q (by decide) (by decide) hs) fun fr b => (wireLevel_iff fr b q).2

/-- C117 for sensors: if a reading is shown, the node has sent it. What is missing: a report whose value has a size that does
not exist is shown too, as 0 (C18). -/
theorem C117_sensor_partial (h : Lives lv db All file c ls) (hn : WasShown lv db All c ls id n) {key : List Char}
    (hk : key ≠ "level".toList ∧ key ≠ "alarm".toList ∧ key ≠ "alarmLastType".toList) {q : Rat}
    (hs : floatState n key = some q) : Said All id fun fr b => WireSensor fr b key q ∨ BadSensor fr b := by
  obtain ⟨g, rfl⟩ := grounded_shown h hn
  exact said_imp (g.float _ q hk.2.1 hk.2.2 hs) fun fr b ⟨r, h1, h2⟩ => wireSensor_of h1 h2 hk.1

/-- C117: an alarm that is shown was raised by that node. -/
theorem C117_alarm (h : Lives lv db All file c ls) (hn : WasShown lv db All c ls id n) :
    (boolState n "alarm".toList = some true → Said All id RaisesAlarm) ∧
    (∀ q, floatState n "alarm".toList = some q → q ≠ 0 → Said All id fun fr b => ∃ t : UInt8, q = t.toNat ∧ WireAlarm fr b t) ∧
    (∀ q, floatState n "alarmLastType".toList = some q → Said All id fun fr b => ∃ t : UInt8, q = t.toNat ∧ WireAlarm fr b t) := by
  obtain ⟨g, rfl⟩ := grounded_shown h hn
  exact ⟨g.alarm, g.alarmType, g.lastType⟩

/-- C117: brand, product and description are empty or those of the product that the node has reported. -/
theorem C117_product (h : Lives lv db All file c ls) (hn : WasShown lv db All c ls id n) :
    (n.brand = [] ∧ n.product = [] ∧ n.description = []) ∨
    ∃ m t p d, Said All id (fun fr b => SaysProduct fr b m t p) ∧ db.device m t p = some d ∧ n.brand = d.brand ∧
      n.product = d.product ∧ n.description = d.description := by
  obtain ⟨g, rfl⟩ := grounded_shown h hn
  exact g.prod

/-- C117: the endpoints of a node are none, or the node has said how many there are; no state is ever shown of them. -/
theorem C117_endpoints (h : Lives lv db All file c ls) (hn : WasShown lv db All c ls id n) {es : List Endpoint}
    (he : n.endpoints = some es) :
    (es = [] ∨ ∃ k, Said All id (fun fr b => SaysEndpoints fr b k) ∧ es.length = k - 1 ∧
      ∀ j : Nat, j < es.length → (es.map Endpoint.id)[j]? = some ((j + 1 : Nat) : Int)) ∧
    ∀ e ∈ es, e.stateBool = some [] ∧ e.stateFloat = some [] := by
  obtain ⟨g, rfl⟩ := grounded_shown h hn
  exact ⟨g.eps es he, g.blank es he⟩

/-- C117, as far as it holds: a node that is stored as awake has sent a command of the wake-up class, or a protocol info reply
has said of a node that it is listening. Missing, as in C115: that the reply is about this node. -/
theorem C117_awake_partial (h : Lives lv db All file c ls) (hn : WasShown lv db All c ls id n) (hs : n.isAwake = true) :
    (∃ fr, All fr ∧ SaysListening fr) ∨ Said All id OfWakeUpClass := by
  obtain ⟨g, rfl⟩ := grounded_shown h hn
  exact g.awake hs

/-- C117: the library sends something to a node of its own accord, in whichever life, only if that node has sent a command of
the wake-up class, or a protocol info reply has said of a node that it is listening. Missing, as in C115: that the reply is
about this node, and that the command is the notification. -/
theorem C117_contacted_partial (h : Lives lv db All file c ls) (hr : runSteps (wStep lv db) (wBegin c) ls = some w)
    (hx : Arrived ls xs) (hc : w.sys.conn.crashed = none) (ha : ∀ fr ∈ onWire xs, All fr)
    {u : Nat} {data : List UInt8} {kind : Conn.Kind} {t : Bool} {er b : UInt8}
    (hs : Ev.submit u data kind t er ∈ w.sys.conn.hist) (hb : Contacts data b)
    (hu : .sys (.conn (.submit data kind t er)) ∉ ls) :
    (∃ fr, All fr ∧ SaysListening fr) ∨ ∃ fr, All fr ∧ OfWakeUpClass fr b := by
  obtain ⟨f, ns, rfl, hg, hn⟩ := (lives_good h).2
  rcases C115_contacted_partial hg hr hx hc hs hb hu with ⟨n, e1, e2, e3⟩ | ⟨fr, e1, e2⟩ | ⟨fr, e1, e2⟩
  · rcases (hn n e1).2.awake e3 with g | ⟨b', g1, fr, g2, g3⟩
    · exact .inl g
    · refine .inr ⟨fr, g2, ?_⟩
      have : b' = b := by
        rw [← e2, ← g1]
        unfold intToByte
        apply UInt8.toNat_inj.1
        have := UInt8.toNat_lt b'
        simp
        omega
      exact this ▸ g3
  · exact .inl ⟨fr, ha fr e1, e2⟩
  · exact .inr ⟨fr, ha fr e1, e2⟩

theorem read_good {o : Order} (h : GoodText db All file) : readConfig o file = .err ∨ ∃ l, readConfig o file = .nodes l := by
  cases file with
  | none => exact .inl rfl
  | some p =>
    obtain ⟨q, l, e, hok, -⟩ := h p rfl
    by_cases hq : q = []
    · subst hq
      rw [List.append_nil] at e
      obtain ⟨ns, -, e'⟩ := read_saved o hok
      exact .inr ⟨_, by rw [e]; exact e'⟩
    · refine .inl ?_
      unfold readConfig
      dsimp only
      rw [parse_save_prefix l e hq]

theorem save_alive {o : Order} {text : List Char} : ∀ (ops : List SaveOp) {s s' : SaveSt}, s.at_ ≠ .panicked →
    (s.at_ = .compare → readConfig o s.file ≠ .panic) → saveRun o text s ops = some s' → s'.at_ ≠ .panicked := by
  intro ops
  induction ops with
  | nil => intro s s' h1 h2 h; cases h; exact h1
  | cons op ops ih =>
    intro s s' h1 h2 h
    rw [saveRun] at h
    cases hs : saveStep o text s op with
    | none => rw [hs] at h; cases h
    | some s1 =>
      rw [hs] at h
      have key : s1.at_ ≠ .panicked ∧ s1.at_ ≠ .compare := by
        unfold saveStep at hs
        repeat' split at hs
        all_goals first
          | (cases hs; done)
          | exact absurd (by assumption) (h2 (by assumption))
          | (cases hs; constructor <;> intro e <;> cases e)
      exact ih key.1 (fun e => absurd e key.2) h

/-- C117: over any number of lives, neither loading nor saving nor the controller ever panics. What is missing: Go's check for
concurrent use of a map may stop the controller (C72, C73). -/
theorem C117_never_panics_partial (h : Lives lv db All file c ls) :
    (∀ o o' c', loadConfig o o' file c' ≠ .panic) ∧
    (∀ o text ops st, saveRun o text ⟨.compare, file⟩ ops = some st → st.at_ ≠ .panicked) ∧
    (∀ ls' w, runSteps (wStep lv db) (wBegin c) ls' = some w →
      w.sys.ctl.crashed = none ∨ w.sys.ctl.crashed = some .mapRace) := by
  obtain ⟨h1, f, ns, rfl, hg, -⟩ := lives_good h
  refine ⟨fun o o' c' hp => ?_, fun o text ops st hs => ?_, fun ls' w hr => ?_⟩
  · unfold loadConfig at hp
    rcases read_good (o := o) h1 with e | ⟨l, e⟩ <;> rw [e] at hp <;> simp only at hp
    · cases hp
    · split at hp <;> cases hp
  · refine save_alive ops (by simp) (fun _ hp => ?_) hs
    rcases read_good (o := o) h1 with e | ⟨l, e⟩ <;> rw [e] at hp <;> cases hp
  · obtain ⟨-, hctl⟩ := Verif.Lemmas.Process.run_parts (f := f) (ns := ns) hr
    exact (cinv hg hctl).crash

theorem shown_at_start {id : Int} {n : Node} (h : c.nodes.get id = some n) : WasShown lv db All c [] id n :=
  ⟨[], [], wBegin c, [[]], rfl, rfl, ⟨rfl, (fun x hx => by simp at hx; subst hx; intro b hb; cases hb)⟩, rfl,
    (fun fr hf => by simp [onWire, Session.frames] at hf), h⟩

/-- C117: what a completed save has written is what the next life begins with. -/
theorem C117_comes_back (h : Lives lv db All file c ls) (l : GoMap Int Node) (o : Order) (ops : List SaveOp) {st : SaveSt}
    (hd : (l.map Prod.fst).Nodup) (hl : ∀ e ∈ l, WasShown lv db All c ls e.1 e.2)
    (hs : saveRun o (saveText l) ⟨.compare, file⟩ ops = some st) (he : st.at_ = .done true) (o1 o2 : Order) (f : Bool) :
    ∃ c', loadConfig o1 o2 st.file (newController f) = .ret false c' ∧ Lives lv db All st.file c' [] ∧
      (∀ id n, l.get id = some n → ∃ n', WasShown lv db All c' [] id n' ∧ Restored n n') ∧
      ∀ id, l.get id = none → c'.nodes.get id = none := by
  have hb := (lives_good h).2
  have hok : ListOk l := ⟨hd, fun e he => (fit_shown hb (hl e he)).2, fun e he => (fit_shown hb (hl e he)).1.savable⟩
  obtain ⟨c', h1, h2, h3⟩ := C48_any_list l hok o1 o2 f
  have hf := C49_complete_save o _ _ ops st hs he
  rw [← hf] at h1
  refine ⟨c', h1, .restart o1 o2 f (.save l o ops h hd hl hs) h1, fun id n hn => ?_, h3⟩
  obtain ⟨n', e1, e2⟩ := h2 id n hn
  exact ⟨n', shown_at_start e1, e2⟩

/-! ### Two lives: in the first one node 2 says that it is on and measures 21.5 degrees -/

theorem get_one (id : Int) (n : Node) : GoMap.get [(id, n)] id = some n := by simp [GoMap.get]

theorem same_bool {n n' : Node} (h : SameMap n.stateBool n'.stateBool) (k : List Char) : boolState n k = boolState n' k := by
  unfold boolState
  cases h1 : n.stateBool <;> cases h2 : n'.stateBool <;> rw [h1, h2] at h <;> first
    | rfl
    | exact h k
    | exact h.elim

theorem same_float {n n' : Node} (h : SameMap n.stateFloat n'.stateFloat) (k : List Char) : floatState n k = floatState n' k := by
  unfold floatState
  cases h1 : n.stateFloat <;> cases h2 : n'.stateFloat <;> rw [h1, h2] at h <;> first
    | rfl
    | exact h k
    | exact h.elim

def lifeFrames : List UInt8 → Prop := fun fr => fr ∈ onWire [jSessionQ, []]

def nodeQ : Node := (jwQ.sys.ctl.heap 0).node

theorem wBegin_none : wBegin (newController false) = wStart false [] := rfl

theorem life_one : Lives .perIteration demoDB lifeFrames none (newController false) jls6 :=
  .run (ls := []) jls6 (.first false) (by rw [wBegin_none]; exact jwQ_run)

theorem nodeQ_shown : WasShown .perIteration demoDB lifeFrames (newController false) jls6 2 nodeQ :=
  ⟨jls6, [], jwQ, _, by simp, by rw [wBegin_none]; exact jwQ_run, jArrivedQ, jwQ_facts.1, fun _ h => h, by
    rw [nodes_get, jwQ_facts.2.1]; rfl⟩

theorem nodeQ_on : boolState nodeQ "on".toList = some true := jwQ_facts.2.2.1
theorem nodeQ_temp : floatState nodeQ "temperature_c".toList = some (43 / 2) := jwQ_facts.2.2.2

theorem save_one (h : Lives lv db All none c ls) (hn : WasShown lv db All c ls id n) : ∃ file c' n', Lives lv db All file c' [] ∧
    WasShown lv db All c' [] id n' ∧ (∀ k, boolState n' k = boolState n k) ∧ ∀ k, floatState n' k = floatState n k := by
  obtain ⟨c, h1, h2, h3, -⟩ := C117_comes_back h [(id, n)] inOrder
    [.go, .go, .put (saveText [(id, n)]).length, .go] (st := ⟨.done true, some (saveText [(id, n)])⟩) (by simp)
    (fun e he => by simp at he; subst he; exact hn)
    (by simp [saveRun, saveStep, readConfig, List.take_length, List.drop_length]) rfl inOrder backwards false
  obtain ⟨n', h4, h5⟩ := h3 id n (get_one id n)
  exact ⟨_, c, n', h2, h4, fun k => (same_bool h5.stateBool k).symm, fun k => (same_float h5.stateFloat k).symm⟩

/-- In the second life nothing has arrived, and node 2 is shown as on; it has said so in the first. -/
theorem life_two : ∃ file c n, Lives .perIteration demoDB lifeFrames file c [] ∧
    WasShown .perIteration demoDB lifeFrames c [] 2 n ∧ boolState n "on".toList = some true ∧
    floatState n "temperature_c".toList = some (43 / 2) := by
  obtain ⟨file, c, n, h1, h2, h3, h4⟩ := save_one (id := 2) (n := nodeQ) life_one nodeQ_shown
  have e1 := h3 "on".toList
  have e2 := h4 "temperature_c".toList
  rw [nodeQ_on] at e1
  rw [nodeQ_temp] at e2
  exact ⟨file, c, n, h1, h2, e1, e2⟩

example : Said lifeFrames 2 fun fr b => WireOn fr b true := by
  obtain ⟨file, c, n, h1, h2, h3, -⟩ := life_two
  exact C117_on h1 h2 h3

example : Said lifeFrames 2 fun fr b => WireSensor fr b "temperature_c".toList (43 / 2) ∨ BadSensor fr b := by
  obtain ⟨file, c, n, h1, h2, -, h3⟩ := life_two
  exact C117_sensor_partial h1 h2 (by decide) h3

/-- Node 2 is shown as awake, with a product and with an endpoint. -/
example : nodeQ.isAwake = true ∧ nodeQ.brand ≠ [] ∧ nodeQ.endpoints.map List.length = some 1 := by decide +kernel

/-- A node that sleeps was contacted: it has woken up. -/
example : (∃ fr, fr ∈ onWire [sSession sWake, []] ∧ SaysListening fr) ∨ ∃ fr, fr ∈ onWire [sSession sWake, []] ∧ OfWakeUpClass fr 2 :=
  C117_contacted_partial (All := fun fr => fr ∈ onWire [sSession sWake, []]) (c := newController false)
    (.run (ls := []) _ (.first false) swW_run) swW_run sArrivedW swW_facts.1 (fun _ h => h) swW_facts.2 ⟨_, rfl⟩
    (s_not_user _ (.inr rfl) _ _ _ _)

end Verif.Props
