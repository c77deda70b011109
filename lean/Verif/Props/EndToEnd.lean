import Verif.Lemmas.EndToEnd

/-
C89: from the wire to the states of the nodes.
-/

set_option linter.unusedSimpArgs false
set_option linter.unusedVariables false

namespace Verif.Props

open Verif.Go Verif.Model Verif.Model.Conn Verif.Spec Verif.Lemmas Verif.Lemmas.Ctl Verif.Lemmas.EndToEnd

/-- A connection and a controller working together: the connection read the sessions `xs` to the end, and the
controller got what the connection handed to the callback. -/
structure Together (lv : LoopVars) (db : DB) (f : Bool) (ns : List Node) (xs : List Session) (s1 : St) (s2 : CSt) : Prop where
  conn : ∃ ls, run lv init ls = some s1 ∧ sessions ls = xs.map Session.reads
  alive : s1.crashed = none
  rest : s1.reader = .read ∨ s1.reader = .down
  ok : ∀ x ∈ xs, x.Ok
  file : GoodFile ns
  ctl : CReach db f ns s2
  joined : arrivals s2.hist = callbacks s1

/-- C89: the callback gets the reports among the frames on the wire, one for each such frame, in their order,
and nothing else. -/
theorem C89_callbacks_are_the_reports {lv : LoopVars} {ls : List Label} {s : St} {xs : List Session}
    (h : run lv init ls = some s) (hx : sessions ls = xs.map Session.reads) (hc : s.crashed = none)
    (hr : s.reader = .read ∨ s.reader = .down) (ho : ∀ x ∈ xs, x.Ok) :
    ∃ part : List UInt8 → List (UInt8 × Report), callbacks s = ((onWire xs).map part).flatten ∧
      ∀ fr ∈ onWire xs, (∀ b r, IsReport fr b r → part fr = [(b, r)]) ∧ ((∀ b r, ¬ IsReport fr b r) → part fr = []) :=
  ⟨said, callbacks_said h hc hr hx ho, fun fr hf => ⟨fun b r hb => said_isReport hb, fun hn => said_none (onWire_good ho hf) hn⟩⟩

theorem arrived_iff {lv : LoopVars} {db : DB} {f : Bool} {ns : List Node} {xs : List Session} {s1 : St} {s2 : CSt}
    (ht : Together lv db f ns xs s1 s2) (b : UInt8) (r : Report) :
    (b, r) ∈ arrivals s2.hist ↔ ∃ fr ∈ onWire xs, IsReport fr b r := by
  obtain ⟨ls, h1, h2⟩ := ht.conn
  rw [ht.joined, callbacks_said h1 ht.alive ht.rest h2 ht.ok]
  constructor
  · intro h
    obtain ⟨p, hp, hb⟩ := List.mem_flatten.1 h
    obtain ⟨fr, hf, rfl⟩ := List.mem_map.1 hp
    exact ⟨fr, hf, (mem_said (onWire_good ht.ok hf) b r).1 hb⟩
  · rintro ⟨fr, hf, hi⟩
    exact List.mem_flatten.2 ⟨said fr, List.mem_map.2 ⟨fr, hf, rfl⟩, (mem_said (onWire_good ht.ok hf) b r).2 hi⟩

/-- All reports of node `b` that reached the controller were applied. -/
def AllApplied (b : UInt8) (s : CSt) : Prop :=
  ∀ k r, arrivalOf k s.hist = some (b, r) → timesApplied k s.hist = 1

/-- The reports applied to a listed node are those its frames on the wire carry. -/
theorem applied_iff {lv : LoopVars} {db : DB} {f : Bool} {ns : List Node} {xs : List Session} {s1 : St} {s2 : CSt}
    (ht : Together lv db f ns xs s1 s2) {b : UInt8} {ref : Nat} (hl : s2.list.get b.toNat = some ref) (r : Report) :
    (r ∈ appliedTo ref s2.hist → ∃ fr ∈ onWire xs, IsReport fr b r) ∧
    (AllApplied b s2 → (∃ fr ∈ onWire xs, IsReport fr b r) → r ∈ appliedTo ref s2.hist) := by
  have hi := apInv ht.file ht.ctl
  have hci := cinv ht.file ht.ctl
  constructor
  · intro h
    obtain ⟨k, hk⟩ := appliedTo_mem.1 h
    obtain ⟨h1, id, h2, h3⟩ := hi.ap k ref r hk
    have h4 := (hci.list _ _ hl).2
    have : id = b := by
      rw [h3] at h4
      exact UInt8.toNat_inj.1 (by exact_mod_cast h4)
    subst this
    exact (arrived_iff ht id r).1 (mem_arrivals.2 ⟨k, arrivalOf_mem h2⟩)
  · intro ha hw
    obtain ⟨k, hk⟩ := mem_arrivals.1 ((arrived_iff ht b r).2 hw)
    have h1 := (hi.arr k b r hk).2
    obtain ⟨ref', r', h2⟩ := applied_of_times (k := k) (h := s2.hist) (by rw [ha k r h1]; omega)
    obtain ⟨h3, id, h4, h5⟩ := hi.ap k ref' r' h2
    rw [h1] at h4
    simp only [Option.some.injEq, Prod.mk.injEq] at h4
    obtain ⟨rfl, rfl⟩ := h4
    have := ref_unique hci hl h3 h5
    subst this
    exact appliedTo_mem.2 ⟨k, h2⟩

/-- C89: when all reports of a listed node that say something about a boolean state agree, and they were
applied, in whatever order, the node has that state. -/
theorem C89_agreed_bool {lv : LoopVars} {db : DB} {f : Bool} {ns : List Node} {xs : List Session} {s1 : St} {s2 : CSt}
    (ht : Together lv db f ns xs s1 s2) {b : UInt8} {ref : Nat} (hl : s2.list.get b.toNat = some ref)
    (ha : AllApplied b s2) {key : List Char} (hk : key ≠ "alarm".toList) {x : Bool}
    (hsome : ∃ fr ∈ onWire xs, ∃ r, IsReport fr b r ∧ saysBool r key = some x)
    (hagree : ∀ fr ∈ onWire xs, ∀ r, IsReport fr b r → saysBool r key = some x ∨ saysBool r key = none) :
    boolState (s2.heap ref).node key = some x := by
  have hci := cinv ht.file ht.ctl
  obtain ⟨n, -, h1, -⟩ := C45_state_from_own_reports db f ns ht.file s2 ht.ctl ref (hci.list _ _ hl).1
  rw [h1 key hk]
  obtain ⟨fr, hf, r, hr, hx⟩ := hsome
  refine lastSaid_agree _ _ ((applied_iff ht hl r).2 ha ⟨fr, hf, hr⟩) hx fun r' hr' => ?_
  obtain ⟨fr', hf', hi'⟩ := (applied_iff ht hl r').1 hr'
  exact hagree fr' hf' r' hi'

/-- C89: the same for numbers. -/
theorem C89_agreed_float {lv : LoopVars} {db : DB} {f : Bool} {ns : List Node} {xs : List Session} {s1 : St} {s2 : CSt}
    (ht : Together lv db f ns xs s1 s2) {b : UInt8} {ref : Nat} (hl : s2.list.get b.toNat = some ref)
    (ha : AllApplied b s2) {key : List Char} (hk : key ≠ "alarm".toList) (hk' : key ≠ "alarmLastType".toList) {x : Rat}
    (hsome : ∃ fr ∈ onWire xs, ∃ r, IsReport fr b r ∧ saysFloat r key = some x)
    (hagree : ∀ fr ∈ onWire xs, ∀ r, IsReport fr b r → saysFloat r key = some x ∨ saysFloat r key = none) :
    floatState (s2.heap ref).node key = some x := by
  have hci := cinv ht.file ht.ctl
  obtain ⟨n, -, -, h1⟩ := C45_state_from_own_reports db f ns ht.file s2 ht.ctl ref (hci.list _ _ hl).1
  rw [h1 key hk hk']
  obtain ⟨fr, hf, r, hr, hx⟩ := hsome
  refine lastSaid_agree _ _ ((applied_iff ht hl r).2 ha ⟨fr, hf, hr⟩) hx fun r' hr' => ?_
  obtain ⟨fr', hf', hi'⟩ := (applied_iff ht hl r').1 hr'
  exact hagree fr' hf' r' hi'

/-- C89: a state that no report on the wire mentions is not changed: it is what it was at the beginning. -/
theorem C89_silent_bool {lv : LoopVars} {db : DB} {f : Bool} {ns : List Node} {xs : List Session} {s1 : St} {s2 : CSt}
    (ht : Together lv db f ns xs s1 s2) {b : UInt8} {ref : Nat} (hl : s2.list.get b.toNat = some ref)
    {key : List Char} (hk : key ≠ "alarm".toList)
    (hn : ∀ fr ∈ onWire xs, ∀ r, IsReport fr b r → saysBool r key = none) :
    ∃ n, beginsAs ns ref n ∧ boolState (s2.heap ref).node key = boolState n key := by
  have hci := cinv ht.file ht.ctl
  obtain ⟨n, hb, h1, -⟩ := C45_state_from_own_reports db f ns ht.file s2 ht.ctl ref (hci.list _ _ hl).1
  refine ⟨n, hb, ?_⟩
  rw [h1 key hk]
  unfold lastSaid
  have : (appliedTo ref s2.hist).reverse.findSome? (fun r => saysBool r key) = none := by
    rw [List.findSome?_eq_none_iff]
    intro r hr
    obtain ⟨fr, hf, hi⟩ := (applied_iff ht hl r).1 (by simpa using hr)
    exact hn fr hf r hi
  rw [this]

/-- The reports of node `b` among frames. -/
theorem reports_in_order {lv : LoopVars} {db : DB} {f : Bool} {ns : List Node} {xs : List Session} {s1 : St} {s2 : CSt}
    (ht : Together lv db f ns xs s1 s2) (b : UInt8) :
    arrivedFrom b s2.hist = ((onWire xs).map fun fr => (said fr).filterMap fun c => if c.1 = b then some c.2 else none).flatten := by
  obtain ⟨ls, h1, h2⟩ := ht.conn
  rw [arrivedFrom_arrivals, ht.joined, callbacks_said h1 ht.alive ht.rest h2 ht.ok]
  show ((onWire xs).map said).flatten.filterMap _ = _
  generalize onWire xs = l
  induction l with
  | nil => rfl
  | cons a l ih => simp only [List.map_cons, List.flatten_cons, List.filterMap_append, ih]

/-- C89 for disagreeing reports, as far as it holds: if reports arrive one at a time, each when the delivery of the
one before is over, the last frame that says something about a state decides it. Missing: other schedules, for
which it is false (C46). -/
theorem C89_last_bool_partial {lv : LoopVars} {db : DB} {f : Bool} {ns : List Node} {xs : List Session} {s1 : St} {s s2 : CSt}
    (ht : Together lv db f ns xs s1 s2) (hr : CReach db f ns s) (hd : s.disc = .done) (h0 : s.nDeliv = 0)
    {ls : List CLabel} (ho : InOrder db s ls) (h : cRun db s ls = some s2)
    (hall : ∀ k, k < s2.nDeliv → s2.deliv k = .done)
    {b : UInt8} {ref : Nat} (hl : s.list.get b.toNat = some ref) (hl2 : s2.list.get b.toNat = some ref)
    {key : List Char} (hk : key ≠ "alarm".toList) {x : Bool}
    {before after : List (List UInt8)} {fr : List UInt8} (hw : onWire xs = before ++ fr :: after) {r : Report}
    (hi : IsReport fr b r) (hx : saysBool r key = some x)
    (hn : ∀ fr' ∈ after, ∀ r', IsReport fr' b r' → saysBool r' key = none) :
    boolState (s2.heap ref).node key = some x := by
  have hci := cinv ht.file ht.ctl
  obtain ⟨n, -, h1, -⟩ := C45_state_from_own_reports db f ns ht.file s2 ht.ctl ref (hci.list _ _ hl2).1
  rw [h1 key hk]
  obtain ⟨new, last, e1, e2, -, e4⟩ := C46_in_order_partial db f ns ht.file s s2 hr hd b ref hl (by omega) ls ho h
  rw [e4 hall] at e1
  have hap := apInv ht.file hr
  have e5 : arrivedFrom b s.hist = [] := by
    rw [arrivedFrom_arrivals]
    have : arrivals s.hist = [] := by
      cases ha : arrivals s.hist with
      | nil => rfl
      | cons c cs =>
        obtain ⟨k, hk⟩ := mem_arrivals.1 (show (c.1, c.2) ∈ arrivals s.hist by rw [ha]; exact List.mem_cons_self)
        have := (hap.arr k _ _ hk).1
        omega
    rw [this]; rfl
  have e6 : appliedTo ref s.hist = [] := by
    cases ha : appliedTo ref s.hist with
    | nil => rfl
    | cons c cs =>
      obtain ⟨k, hk⟩ := appliedTo_mem.1 (show c ∈ appliedTo ref s.hist by rw [ha]; exact List.mem_cons_self)
      obtain ⟨-, id, h2, -⟩ := hap.ap k ref c hk
      have := (hap.arr k _ _ (arrivalOf_mem h2)).1
      omega
  rw [e5, List.nil_append, List.append_nil] at e1
  rw [e6, List.nil_append] at e2
  rw [e2, ← e1, reports_in_order ht b, hw]
  simp only [List.map_append, List.map_cons, List.flatten_append, List.flatten_cons, said_isReport hi]
  simp only [List.filterMap_cons, if_true, List.filterMap_nil, List.cons_append, List.nil_append]
  refine lastSaid_last _ _ hx fun r' hr' => ?_
  obtain ⟨p, hp, hrp⟩ := List.mem_flatten.1 hr'
  obtain ⟨fr', hf', rfl⟩ := List.mem_map.1 hp
  obtain ⟨c, hc, he⟩ := List.mem_filterMap.1 hrp
  split at he
  · rename_i hcb
    cases he
    exact hn fr' hf' c.2 (by
      rw [← hcb]
      exact (mem_said (onWire_good ht.ok (by rw [hw]; simp [hf'])) c.1 c.2).1 hc)
  · cases he

/-! ### In terms of bytes -/

theorem min_ne_zero (v : UInt8) : min v.toNat 100 ≠ 0 ↔ v ≠ 0 := by
  have : v = 0 ↔ v.toNat = 0 := by rw [← UInt8.toNat_inj]; rfl
  rw [ne_eq, ne_eq, this]; omega

/-- The frames that say something about "on". -/
theorem wireOn_iff (fr : List UInt8) (b : UInt8) (x : Bool) :
    WireOn fr b x ↔ ∃ r, IsReport fr b r ∧ saysBool r "on".toList = some x := by
  constructor
  · rintro (⟨v, h, rfl⟩ | ⟨v, t, d, h, rfl⟩ | ⟨v, h, rfl⟩ | ⟨v, t, d, h, rfl⟩)
    · obtain ⟨r, hr⟩ : ∃ r, newReport 0x25 0x03 [v] = .ok r := ⟨_, rfl⟩
      exact ⟨r, ⟨_, _, _, h, hr⟩, by rw [C20_binary_v1 v r hr]; rfl⟩
    · obtain ⟨r, hr⟩ : ∃ r, newReport 0x25 0x03 [v, t, d] = .ok r := ⟨_, rfl⟩
      exact ⟨r, ⟨_, _, _, h, hr⟩, by rw [C20_binary_v2 v t d r hr]; rfl⟩
    · obtain ⟨r, hr⟩ : ∃ r, newReport 0x26 0x03 [v] = .ok r := ⟨_, rfl⟩
      obtain ⟨b', e, rfl⟩ := (C20_multilevel [v]).1 r hr
      cases e
      exact ⟨_, ⟨_, _, _, h, hr⟩, by simp only [saysBool, if_true, min_ne_zero]⟩
    · obtain ⟨r, hr⟩ : ∃ r, newReport 0x26 0x03 [v, t, d] = .ok r := ⟨_, rfl⟩
      obtain ⟨a, b', c, e, rfl⟩ := (C20_multilevel [v, t, d]).2 r hr
      cases e
      exact ⟨_, ⟨_, _, _, h, hr⟩, by simp only [saysBool, if_true, min_ne_zero]⟩
  · rintro ⟨r, ⟨cls, cmd, p, hc, hr⟩, hs⟩
    have hk := (C15_dispatch cls cmd p (kindOf r)).1 ⟨r, hr, rfl⟩
    cases r <;> simp only [saysBool, if_true, reduceCtorEq, Option.some.injEq] at hs
    case switchBinaryV1 c v =>
      obtain ⟨h1, h2⟩ := hk
      simp [kindOf, classTable] at h1
      obtain ⟨rfl, rfl⟩ := h1
      obtain ⟨v, rfl⟩ := List.length_eq_one_iff.1 h2
      have := C20_binary_v1 v _ hr
      cases this
      exact .inl ⟨v, hc, hs.symm⟩
    case switchBinaryV2 c v w =>
      obtain ⟨h1, h2⟩ := hk
      simp [kindOf, classTable] at h1
      obtain ⟨rfl, rfl⟩ := h1
      match p, h2 with
      | [v, t, u], _ =>
        have := C20_binary_v2 v t u _ hr
        cases this
        exact .inr (.inl ⟨_, _, _, hc, hs.symm⟩)
    case switchMultilevelV1 c v =>
      obtain ⟨h1, h2⟩ := hk
      simp [kindOf, classTable] at h1
      obtain ⟨rfl, rfl⟩ := h1
      obtain ⟨v, rfl⟩ := List.length_eq_one_iff.1 h2
      obtain ⟨b', e, e'⟩ := (C20_multilevel [v]).1 _ hr
      cases e
      cases e'
      exact .inr (.inr (.inl ⟨v, hc, by simp only [min_ne_zero] at hs; exact hs.symm⟩))
    case switchMultilevelV4 =>
      obtain ⟨h1, h2⟩ := hk
      simp [kindOf, classTable] at h1
      obtain ⟨rfl, rfl⟩ := h1
      match p, h2 with
      | [v, t, u], _ =>
        obtain ⟨a, b', c, e, e'⟩ := (C20_multilevel [v, t, u]).2 _ hr
        cases e
        cases e'
        exact .inr (.inr (.inr ⟨_, _, _, hc, by simp only [min_ne_zero] at hs; exact hs.symm⟩))

/-- The frames that say something about "level". -/
theorem wireLevel_iff (fr : List UInt8) (b : UInt8) (q : Rat) :
    (∃ n : Nat, q = n ∧ WireLevel fr b n) ↔
      ∃ r, IsReport fr b r ∧ saysFloat r "level".toList = some q := by
  constructor
  · rintro ⟨n, rfl, ⟨v, h, rfl⟩ | ⟨v, t, d, h, rfl⟩⟩
    · obtain ⟨r, hr⟩ : ∃ r, newReport 0x26 0x03 [v] = .ok r := ⟨_, rfl⟩
      obtain ⟨b', e, rfl⟩ := (C20_multilevel [v]).1 r hr
      cases e
      exact ⟨_, ⟨_, _, _, h, hr⟩, by simp only [saysFloat, if_true]⟩
    · obtain ⟨r, hr⟩ : ∃ r, newReport 0x26 0x03 [v, t, d] = .ok r := ⟨_, rfl⟩
      obtain ⟨a, b', c, e, rfl⟩ := (C20_multilevel [v, t, d]).2 r hr
      cases e
      exact ⟨_, ⟨_, _, _, h, hr⟩, by simp only [saysFloat, if_true]⟩
  · rintro ⟨r, ⟨cls, cmd, p, hc, hr⟩, hs⟩
    have hk := (C15_dispatch cls cmd p (kindOf r)).1 ⟨r, hr, rfl⟩
    cases r <;> simp only [saysFloat, if_true, reduceCtorEq, Option.some.injEq] at hs
    case sensorMultiLevel s =>
      split at hs
      · rename_i he
        exact absurd (by unfold sensorKey; rw [he]; simp) (C19_keys_not_reserved s).1
      · cases hs
    case switchMultilevelV1 c v =>
      obtain ⟨h1, h2⟩ := hk
      simp [kindOf, classTable] at h1
      obtain ⟨rfl, rfl⟩ := h1
      obtain ⟨v, rfl⟩ := List.length_eq_one_iff.1 h2
      obtain ⟨b', e, e'⟩ := (C20_multilevel [v]).1 _ hr
      cases e
      cases e'
      exact ⟨_, hs.symm, .inl ⟨v, hc, rfl⟩⟩
    case switchMultilevelV4 =>
      obtain ⟨h1, h2⟩ := hk
      simp [kindOf, classTable] at h1
      obtain ⟨rfl, rfl⟩ := h1
      match p, h2 with
      | [v, t, u], _ =>
        obtain ⟨a, b', c, e, e'⟩ := (C20_multilevel [v, t, u]).2 _ hr
        cases e
        cases e'
        exact ⟨_, hs.symm, .inr ⟨_, _, _, hc, rfl⟩⟩

/-- C89 for "on", in terms of the bytes on the wire: when all frames of node `b` that say whether it is on agree, and
its reports were applied, the node is shown as the frames say. -/
theorem C89_wire_on {lv : LoopVars} {db : DB} {f : Bool} {ns : List Node} {xs : List Session} {s1 : St} {s2 : CSt}
    (ht : Together lv db f ns xs s1 s2) {b : UInt8} {ref : Nat} (hl : s2.list.get b.toNat = some ref)
    (ha : AllApplied b s2) {x : Bool} (hsome : ∃ fr ∈ onWire xs, WireOn fr b x)
    (hagree : ∀ fr ∈ onWire xs, ∀ y, WireOn fr b y → y = x) :
    boolState (s2.heap ref).node "on".toList = some x := by
  obtain ⟨fr, hf, hw⟩ := hsome
  refine C89_agreed_bool ht hl ha (by decide) ⟨fr, hf, (wireOn_iff fr b x).1 hw⟩ fun fr' hf' r' hr' => ?_
  cases hs : saysBool r' "on".toList with
  | none => exact .inr rfl
  | some y => exact .inl (by rw [hagree fr' hf' y ((wireOn_iff fr' b y).2 ⟨r', hr', hs⟩)])

/-- C89 for "level", likewise. -/
theorem C89_wire_level {lv : LoopVars} {db : DB} {f : Bool} {ns : List Node} {xs : List Session} {s1 : St} {s2 : CSt}
    (ht : Together lv db f ns xs s1 s2) {b : UInt8} {ref : Nat} (hl : s2.list.get b.toNat = some ref)
    (ha : AllApplied b s2) {n : Nat} (hsome : ∃ fr ∈ onWire xs, WireLevel fr b n)
    (hagree : ∀ fr ∈ onWire xs, ∀ m, WireLevel fr b m → m = n) :
    floatState (s2.heap ref).node "level".toList = some (n : Rat) := by
  obtain ⟨fr, hf, hw⟩ := hsome
  refine C89_agreed_float ht hl ha (by decide) (by decide) ⟨fr, hf, (wireLevel_iff fr b n).1 ⟨n, rfl, hw⟩⟩ fun fr' hf' r' hr' => ?_
  cases hs : saysFloat r' "level".toList with
  | none => exact .inr rfl
  | some y =>
    obtain ⟨m, rfl, hm⟩ := (wireLevel_iff fr' b y).2 ⟨r', hr', hs⟩
    exact .inl (by rw [hagree fr' hf' m hm])

/-! ### An instance -/

/-- Node 2 is off. -/
def exOff : List UInt8 := [0x01, 0x09, 0x00, 0x04, 0x00, 0x02, 0x03, 0x25, 0x03, 0x00, 0xD5]

theorem exOff_good : GoodFrame exOff :=
  ⟨[0x00, 0x04, 0x00, 0x02, 0x03, 0x25, 0x03, 0x00], ⟨0x09, 0xD5, rfl, rfl, by decide⟩,
    .inl ⟨0x00, 0x00, 0x02, 0x03, [0x25, 0x03, 0x00], rfl, by decide, by decide, by decide⟩⟩

/-- Off, then on, each in a burst of its own. -/
def exSession : Session :=
  [(⟨[.frame exOff], none⟩, ⟨exOff, true, 5⟩, []), (⟨[.frame exReport], none⟩, ⟨exReport, true, 5⟩, [])]

theorem exSession_ok : ∀ x ∈ [exSession, []], x.Ok := by
  intro x hx
  simp at hx
  rcases hx with rfl | rfl
  case inr => intro b hb; cases hb
  intro b hb
  simp [exSession] at hb
  rcases hb with rfl | rfl
  · refine ⟨⟨?_, by simp⟩, by simp, by decide⟩
    intro t ht; simp at ht; subst ht; exact exOff_good
  · refine ⟨⟨?_, by simp⟩, by simp, by decide⟩
    intro t ht; simp at ht; subst ht; exact exReport_good

/-- The reader's work on one of those frames. -/
def exWork : List Label := List.replicate 3 (.reader .go) ++ [.reader .stop] ++ List.replicate 5 (.reader .go)

def exWire : List Label :=
  [.connect true, .reader (.read ⟨exOff, true, 5⟩)] ++ exWork ++ [.reader (.read ⟨exReport, true, 5⟩)] ++ exWork

/-- Node 2 is discovered, its reports are delivered one by one. -/
theorem exTogether : ∃ s1 s s2, Together .perLoop demoDB false [] [exSession, []] s1 s2 ∧ CReach demoDB false [] s ∧
    cRun demoDB s (deliverOne 0 repOff ++ deliverOne 1 repOn) = some s2 ∧ s.disc = .done ∧ s.nDeliv = 0 ∧
    s.list.get (2 : UInt8).toNat = some 0 ∧ s2.list.get (2 : UInt8).toNat = some 0 ∧
    (∀ k, k < s2.nDeliv → s2.deliv k = .done) := by
  have h1 : (run .perLoop init exWire).map (fun s => decide (s.crashed = none ∧ s.reader = .read ∧
      callbacks s = [(2, repOff), (2, repOn)])) = some true := by decide +kernel
  rw [Option.map_eq_some_iff] at h1
  obtain ⟨s1, g1, h1⟩ := h1
  obtain ⟨a1, a2, a3⟩ := of_decide_eq_true h1
  have h : ((cRun demoDB (start false []) discOne).bind fun s =>
      (cRun demoDB s (deliverOne 0 repOff ++ deliverOne 1 repOn)).map fun s' =>
        decide (s.disc = .done ∧ s.list.get (2 : UInt8).toNat = some 0 ∧ s.nDeliv = 0 ∧
          arrivals s'.hist = [(2, repOff), (2, repOn)] ∧ s'.list.get (2 : UInt8).toNat = some 0 ∧ s'.nDeliv = 2 ∧
          s'.deliv 0 = .done ∧ s'.deliv 1 = .done)) = some true := by decide +kernel
  rw [Option.bind_eq_some_iff] at h
  obtain ⟨s, g2, h⟩ := h
  rw [Option.map_eq_some_iff] at h
  obtain ⟨s2, g3, h⟩ := h
  obtain ⟨b1, b2, b3, b4, b5, b6, b7, b8⟩ := of_decide_eq_true h
  refine ⟨s1, s, s2, ⟨⟨exWire, g1, by decide⟩, a1, .inl a2, exSession_ok, noFileGood,
    ⟨discOne ++ (deliverOne 0 repOff ++ deliverOne 1 repOn), by rw [cRun_append, g2]; exact g3⟩, by rw [b4, a3]⟩,
    ⟨_, g2⟩, g3, b1, b3, b2, b5, ?_⟩
  intro k hk
  rw [b6] at hk
  match k, hk with
  | 0, _ => exact b7
  | 1, _ => exact b8

example : onWire [exSession, []] = [exOff, exReport] := by decide

example : IsReport exReport 2 repOn ∧ saysBool repOn "on".toList = some true ∧ WireOn exReport 2 true ∧ WireOn exOff 2 false :=
  have h1 : CarriesCmd exReport 2 0x25 0x03 [0xFF] := ⟨0x00, 0x00, 0x03, [], ⟨0x09, 0x2A, rfl, rfl, by decide⟩, rfl, by decide⟩
  have h2 : CarriesCmd exOff 2 0x25 0x03 [0x00] := ⟨0x00, 0x00, 0x03, [], ⟨0x09, 0xD5, rfl, rfl, by decide⟩, rfl, by decide⟩
  ⟨⟨_, _, _, h1, rfl⟩, rfl, .inl ⟨0xFF, h1, rfl⟩, .inl ⟨0x00, h2, rfl⟩⟩

end Verif.Props
