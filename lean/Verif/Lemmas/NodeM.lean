import Verif.Model.NodeM

/-
Lemmas about the node machine.
-/

set_option linter.unusedSimpArgs false
set_option linter.unusedVariables false
set_option maxHeartbeats 4000000

namespace Verif.Lemmas.NodeM

open Verif.Go Verif.Model

/-! ### Maps -/

theorem get_set {κ ν : Type} [DecidableEq κ] (m : GoMap κ ν) (k k' : κ) (v : ν) :
    (m.set k v).get k' = if k' = k then some v else m.get k' := by
  induction m with
  | nil => simp only [GoMap.set, GoMap.get, eq_comm]
  | cons e r ih =>
    obtain ⟨a, b⟩ := e
    simp only [GoMap.set]
    split
    · rename_i h; subst h; simp only [GoMap.get, eq_comm]
      split <;> rfl
    · rename_i h
      simp only [GoMap.get, ih]
      split
      · rename_i h'; subst h'; rw [if_neg h]
      · rfl

/-- `n.StateBool[k]`, with presence -/
def getB (n : Node) (k : List Char) : Option Bool := n.stateBool.bind (·.get k)
/-- `n.StateFloat[k]`, with presence -/
def getF (n : Node) (k : List Char) : Option Rat := n.stateFloat.bind (·.get k)

/-- All fields but the two state maps agree; non-nil maps stay non-nil. -/
structure SameCore (n n' : Node) : Prop where
  id : n'.id = n.id
  isAwake : n'.isAwake = n.isAwake
  protocolInfo : n'.protocolInfo = n.protocolInfo
  manufacturer : n'.manufacturer = n.manufacturer
  brand : n'.brand = n.brand
  product : n'.product = n.product
  description : n'.description = n.description
  classes : n'.classes = n.classes
  endpoints : n'.endpoints = n.endpoints
  statesOk : n'.statesOk = n.statesOk
  identified : n'.identified = n.identified
  hasConn : n'.hasConn = n.hasConn
  mapB : n'.stateBool.isSome = n.stateBool.isSome
  mapF : n'.stateFloat.isSome = n.stateFloat.isSome

theorem SameCore.refl (n : Node) : SameCore n n := by constructor <;> rfl

theorem SameCore.trans {a b c : Node} (h : SameCore a b) (g : SameCore b c) : SameCore a c := by
  obtain ⟨h1, h2, h3, h4, h5, h6, h7, h8, h9, h10, h11, h12, h13, h14⟩ := h
  obtain ⟨g1, g2, g3, g4, g5, g6, g7, g8, g9, g10, g11, g12, g13, g14⟩ := g
  constructor <;> simp [*]

theorem setBool_ok {n n' : Node} {k : List Char} {v : Bool} (h : n.setBool k v = .ok n') :
    SameCore n n' ∧ (∀ k', getB n' k' = if k' = k then some v else getB n k') ∧
      (∀ k', getF n' k' = getF n k') := by
  unfold Node.setBool mapPut at h
  cases hm : n.stateBool with
  | none => rw [hm] at h; cases h
  | some m =>
    rw [hm] at h
    cases h
    refine ⟨by constructor <;> simp [hm], fun k' => ?_, fun _ => rfl⟩
    simp [getB, hm, get_set]

theorem setFloat_ok {n n' : Node} {k : List Char} {v : Rat} (h : n.setFloat k v = .ok n') :
    SameCore n n' ∧ (∀ k', getF n' k' = if k' = k then some v else getF n k') ∧
      (∀ k', getB n' k' = getB n k') := by
  unfold Node.setFloat mapPut at h
  cases hm : n.stateFloat with
  | none => rw [hm] at h; cases h
  | some m =>
    rw [hm] at h
    cases h
    refine ⟨by constructor <;> simp [hm], fun k' => ?_, fun _ => rfl⟩
    simp [getF, hm, get_set]

theorem setBool_some {n : Node} (h : n.stateBool.isSome = true) (k : List Char) (v : Bool) :
    ∃ n', n.setBool k v = .ok n' := by
  unfold Node.setBool mapPut
  cases hm : n.stateBool with
  | none => rw [hm] at h; cases h
  | some m => exact ⟨_, rfl⟩

theorem setFloat_some {n : Node} (h : n.stateFloat.isSome = true) (k : List Char) (v : Rat) :
    ∃ n', n.setFloat k v = .ok n' := by
  unfold Node.setFloat mapPut
  cases hm : n.stateFloat with
  | none => rw [hm] at h; cases h
  | some m => exact ⟨_, rfl⟩

theorem res_bind_ok {α β : Type} {r : Res α} {f : α → Res β} {b : β} (h : r.bind f = .ok b) :
    ∃ a, r = .ok a ∧ f a = .ok b := by
  cases r with
  | error e => cases h
  | ok a => exact ⟨a, rfl, h⟩

/-! ### Steps -/

/-- Reached from node `n` by steps of its goroutines. -/
def NReach (db : DB) (n : Node) (s : NSt) : Prop := ∃ ls, nodeRun db (NSt.start n) ls = some s

theorem nodeRun_append {db : DB} {s : NSt} {a b : List NLabel} :
    nodeRun db s (a ++ b) = (nodeRun db s a).bind fun s => nodeRun db s b := by
  induction a generalizing s with
  | nil => rfl
  | cons l a ih =>
    simp only [List.cons_append, nodeRun]
    cases nodeStep db s l with
    | none => rfl
    | some s' => exact ih

theorem nreach_step {db : DB} {n : Node} {s s' : NSt} {l : NLabel} (h : NReach db n s)
    (hs : nodeStep db s l = some s') : NReach db n s' := by
  obtain ⟨ls, h⟩ := h
  exact ⟨ls ++ [l], by rw [nodeRun_append, h]; simp [nodeRun, hs]⟩

/-- Induction over runs. -/
theorem run_induct {db : DB} {P : NSt → Prop}
    (hstep : ∀ s l s', P s → nodeStep db s l = some s' → P s') :
    ∀ ls s0 s, P s0 → nodeRun db s0 ls = some s → P s := by
  intro ls
  induction ls with
  | nil => intro s0 s hp h; cases h; exact hp
  | cons l ls ih =>
    intro s0 s hp h
    simp only [nodeRun] at h
    cases hl : nodeStep db s0 l with
    | none => rw [hl] at h; cases h
    | some s1 => rw [hl] at h; exact ih s1 s (hstep s0 l s1 hp hl) h

/-- Case analysis on the step taken. -/
syntax "node_step " ident : tactic
macro_rules
  | `(tactic| node_step $h) => `(tactic| (
      unfold nodeStep at $h:ident
      split at $h:ident
      · cases $h:ident
      split at $h:ident <;>
        try simp only [identStep, reportStep, procStep, NSt.push, NSt.goto, NSt.write, NSt.await] at $h:ident
      all_goals repeat' split at $h:ident
      all_goals try injection $h:ident with $h:ident
      all_goals try subst $h:ident
      all_goals try (cases $h:ident; done)))

theorem alarmOn_ok {n n' : Node} {a : Alarm} (h : n.alarmOn a = .ok n') :
    SameCore n n' ∧ (∀ k, getB n' k = if k = kAlarm then some true else getB n k) ∧
    (∀ k, getF n' k = if a.type ≠ 0 ∧ (k = kAlarm ∨ k = kAlarmLast) then some ((a.type.toNat : Nat) : Rat) else getF n k) := by
  unfold Node.alarmOn at h
  obtain ⟨n1, h1, h⟩ := res_bind_ok h
  obtain ⟨a1, a2, a3⟩ := setBool_ok h1
  split at h
  · rename_i ht
    obtain ⟨n2, h2, h⟩ := res_bind_ok h
    obtain ⟨b1, b2, b3⟩ := setFloat_ok h2
    obtain ⟨c1, c2, c3⟩ := setFloat_ok h
    refine ⟨(a1.trans b1).trans c1, fun k => by rw [c3, b3, a2], fun k => ?_⟩
    rw [c2, b2, a3]
    by_cases h1 : k = kAlarm <;> by_cases h2 : k = kAlarmLast <;> simp [h1, h2, ht]
  · rename_i ht
    cases h
    exact ⟨a1, a2, fun k => by rw [a3]; simp only [ne_eq, Classical.not_not] at ht; simp [ht]⟩

theorem alarmOff_ok {n n' : Node} (h : n.alarmOff = .ok n') :
    SameCore n n' ∧ (∀ k, getB n' k = if k = kAlarm then some false else getB n k) ∧
    (∀ k, getF n' k = if k = kAlarm then some 0 else getF n k) := by
  unfold Node.alarmOff at h
  obtain ⟨n1, h1, h⟩ := res_bind_ok h
  obtain ⟨a1, a2, a3⟩ := setBool_ok h1
  obtain ⟨c1, c2, c3⟩ := setFloat_ok h
  exact ⟨a1.trans c1, fun k => by rw [c3, a2], fun k => by rw [c2, a3]⟩

theorem applyState_core {n n' : Node} {r : Report} {b : Bool} (h : n.applyState r = .ok (n', b)) :
    SameCore n n' := by
  unfold Node.applyState at h
  split at h
  case h_6 => cases h; exact .refl _
  all_goals
    obtain ⟨n1, h1, h⟩ := res_bind_ok h
  case h_1 => cases h; exact (setBool_ok h1).1
  case h_2 => cases h; exact (setBool_ok h1).1
  case h_3 => obtain ⟨n2, h2, h⟩ := res_bind_ok h; cases h; exact (setBool_ok h1).1.trans (setFloat_ok h2).1
  case h_4 => obtain ⟨n2, h2, h⟩ := res_bind_ok h; cases h; exact (setBool_ok h1).1.trans (setFloat_ok h2).1
  case h_5 => cases h; exact (setFloat_ok h1).1

theorem setManufacturer_fields (db : DB) (n : Node) (m : ManufacturerSpecific) :
    (n.setManufacturer db m).protocolInfo = n.protocolInfo ∧
    (n.setManufacturer db m).manufacturer = some m ∧
    (n.setManufacturer db m).endpoints = n.endpoints ∧
    (n.setManufacturer db m).statesOk = n.statesOk ∧
    (n.setManufacturer db m).identified = n.identified ∧
    (n.setManufacturer db m).hasConn = n.hasConn ∧
    (n.setManufacturer db m).isAwake = n.isAwake ∧
    (n.setManufacturer db m).stateBool = n.stateBool ∧
    (n.setManufacturer db m).stateFloat = n.stateFloat ∧
    (n.setManufacturer db m).id = n.id := by
  unfold Node.setManufacturer
  simp only
  split <;> simp

/-! ### Identification -/

/-- How far an identification has come within its loop. -/
def lvl : IdentAt → Nat
  | .absent | .top | .info | .sleep => 0
  | .classes | .manufacturer | .awTest .manufacturer | .awNil .manufacturer | .awMake .manufacturer
  | .awRet .manufacturer | .awWait .manufacturer _ | .send .manufacturer | .reply .manufacturer => 1
  | .endpoints | .awTest .endpoints | .awNil .endpoints | .awMake .endpoints
  | .awRet .endpoints | .awWait .endpoints _ | .send .endpoints | .reply .endpoints => 2
  | .endpointsEvent | .states | .awTest .states | .awNil .states | .awMake .states
  | .awRet .states | .awWait .states _ | .send .states | .reply .states | .query _ | .sensor _ => 3
  | .finish | .mark | .done => 4

/-- What an identification has established. -/
structure IdInv (s : NSt) : Prop where
  l1 : ∀ i, 1 ≤ lvl (s.ident i) → s.node.protocolInfo.isSome = true
  l2 : ∀ i, 2 ≤ lvl (s.ident i) → s.node.manufacturer.isSome = true
  l3 : ∀ i, 3 ≤ lvl (s.ident i) → s.node.endpoints.isSome = true
  l4 : ∀ i, 4 ≤ lvl (s.ident i) → s.node.statesOk = true
  ok : s.node.statesOk = true → s.node.protocolInfo.isSome = true ∧ s.node.manufacturer.isSome = true ∧
    s.node.endpoints.isSome = true
  marked : s.node.identified = true → s.node.statesOk = true
  done : ∀ i, s.ident i = .done → s.node.identified = true

theorem id_step {db : DB} {s s' : NSt} {l : NLabel} (hi : IdInv s)
    (h : nodeStep db s l = some s') : IdInv s' := by
  obtain ⟨k1, k2, k3, k4, k5, k6, k7⟩ := hi
  node_step h
  all_goals try have q := congrArg lvl (by assumption : NSt.ident s _ = _)
  all_goals try conv at q => rhs; whnf
  all_goals constructor
  all_goals first
    | assumption
    | grind [updN, lvl, SameCore, → alarmOn_ok, → alarmOff_ok, → applyState_core, setManufacturer_fields]


/-- A node that nothing has been asked about yet, or whose information is consistent. -/
structure FreshOk (n : Node) : Prop where
  ok : n.statesOk = true → n.protocolInfo.isSome = true ∧ n.manufacturer.isSome = true ∧ n.endpoints.isSome = true
  marked : n.identified = true → n.statesOk = true

theorem idInv_start {n : Node} (h : FreshOk n) : IdInv (NSt.start n) := by
  obtain ⟨h1, h2⟩ := h
  constructor <;> simp [NSt.start, lvl] <;> assumption

theorem idInv {db : DB} {n : Node} {s : NSt} (hn : FreshOk n) (h : NReach db n s) : IdInv s := by
  obtain ⟨ls, h⟩ := h
  exact run_induct (fun _ _ _ => id_step) ls _ _ (idInv_start hn) h

/-! ### Wake-ups and the lock -/

/-- Positions that are never reached. -/
def dead : IdentAt → Bool
  | .reply .states => true
  | _ => false

structure WakeInv (s : NSt) : Prop where
  fresh : ∀ i, s.nIdent ≤ i → s.ident i = .absent
  freshP : ∀ j, s.nProc ≤ j → s.proc j = .absent
  alive : ∀ i, dead (s.ident i) = false
  free : s.lock = none → ∀ c, s.awake = some c → s.closed c = false
  own1 : ∀ j, s.proc j = .wakeClose → s.lock = some j
  own2 : ∀ j, s.proc j = .wakeNil → s.lock = some j
  held : ∀ j, s.lock = some j → (s.proc j = .wakeClose ∨ s.proc j = .wakeNil)
  closing : ∀ j, s.proc j = .wakeClose → ∃ c, s.awake = some c ∧ s.closed c = false
  chans : ∀ c, s.nChan ≤ c → s.closed c = false
  awk : ∀ c, s.awake = some c → c < s.nChan

theorem wakeInv_start (n : Node) : WakeInv (NSt.start n) := by
  constructor <;> simp [NSt.start, dead]

theorem wake_step {db : DB} {s s' : NSt} {l : NLabel} (hi : WakeInv s)
    (h : nodeStep db s l = some s') : WakeInv s' := by
  obtain ⟨k1, k2, k3, k4, k5, k5', k5'', k6, k7, k8⟩ := hi
  node_step h
  all_goals try have q := congrArg dead (by assumption : NSt.ident s _ = _)
  all_goals try conv at q => rhs; whnf
  all_goals constructor
  all_goals first
    | assumption
    | grind [updN, dead]

theorem wakeInv {db : DB} {n : Node} {s : NSt} (h : NReach db n s) : WakeInv s := by
  obtain ⟨ls, h⟩ := h
  exact run_induct (fun _ _ _ => wake_step) ls _ _ (wakeInv_start n) h

/-! ### No panics -/

/-- The node can be used: it was made by `New` (or loaded with its maps) and set up. -/
structure Usable (n : Node) : Prop where
  mapB : n.stateBool.isSome = true
  mapF : n.stateFloat.isSome = true
  conn : n.hasConn = true

theorem alarmOn_some {n : Node} (hb : n.stateBool.isSome = true) (hf : n.stateFloat.isSome = true) (a : Alarm) :
    ∃ n', n.alarmOn a = .ok n' := by
  unfold Node.alarmOn
  obtain ⟨n1, h1⟩ := setBool_some hb kAlarm true
  rw [h1]
  simp only [Except.bind]
  have c1 := (setBool_ok h1).1
  split
  · obtain ⟨n2, h2⟩ := setFloat_some (by rw [c1.mapF]; exact hf) kAlarm (a.type.toNat : Rat)
    rw [h2]
    have c2 := (setFloat_ok h2).1
    exact setFloat_some (by rw [c2.mapF, c1.mapF]; exact hf) _ _
  · exact ⟨_, rfl⟩

theorem alarmOff_some {n : Node} (hb : n.stateBool.isSome = true) (hf : n.stateFloat.isSome = true) :
    ∃ n', n.alarmOff = .ok n' := by
  unfold Node.alarmOff
  obtain ⟨n1, h1⟩ := setBool_some hb kAlarm false
  rw [h1]
  simp only [Except.bind]
  have c1 := (setBool_ok h1).1
  exact setFloat_some (by rw [c1.mapF]; exact hf) _ _

theorem applyState_some {n : Node} (hb : n.stateBool.isSome = true) (hf : n.stateFloat.isSome = true) (r : Report) :
    ∃ p, n.applyState r = .ok p := by
  unfold Node.applyState
  split
  · rename_i c _; obtain ⟨n1, h1⟩ := setBool_some hb kOn c; rw [h1]; exact ⟨_, rfl⟩
  · rename_i c _ _; obtain ⟨n1, h1⟩ := setBool_some hb kOn c; rw [h1]; exact ⟨_, rfl⟩
  · rename_i c _
    obtain ⟨n1, h1⟩ := setBool_some hb kOn (decide (0 < c)); rw [h1]
    simp only [Except.bind]
    obtain ⟨n2, h2⟩ := setFloat_some (by rw [(setBool_ok h1).1.mapF]; exact hf) kLevel (c : Rat); rw [h2]; exact ⟨_, rfl⟩
  · rename_i c _ _ _ _
    obtain ⟨n1, h1⟩ := setBool_some hb kOn (decide (0 < c)); rw [h1]
    simp only [Except.bind]
    obtain ⟨n2, h2⟩ := setFloat_some (by rw [(setBool_ok h1).1.mapF]; exact hf) kLevel (c : Rat); rw [h2]; exact ⟨_, rfl⟩
  · rename_i s
    obtain ⟨n2, h2⟩ := setFloat_some hf (sensorKey s) s.value; rw [h2]; exact ⟨_, rfl⟩
  · exact ⟨_, rfl⟩

theorem usable_step {db : DB} {s s' : NSt} {l : NLabel} (hu : Usable s.node) (hc : s.crashed = none)
    (hi : IdInv s) (hw : WakeInv s) (h : nodeStep db s l = some s') : Usable s'.node ∧ s'.crashed = none := by
  obtain ⟨u1, u2, u3⟩ := hu
  have k1 := hi.l1
  have k6 := hw.closing
  have e1 : ∀ a p, s.node.alarmOn a ≠ .error p := by
    intro a p h; obtain ⟨n, h'⟩ := alarmOn_some u1 u2 a; rw [h] at h'; cases h'
  have e2 : ∀ p, s.node.alarmOff ≠ .error p := by
    intro p h; obtain ⟨n, h'⟩ := alarmOff_some u1 u2; rw [h] at h'; cases h'
  have e3 : ∀ r p, s.node.applyState r ≠ .error p := by
    intro r p h; obtain ⟨n, h'⟩ := applyState_some u1 u2 r; rw [h] at h'; cases h'
  clear hi hw
  node_step h
  all_goals try have q := congrArg lvl (by assumption : NSt.ident s _ = _)
  all_goals try conv at q => rhs; whnf
  all_goals refine ⟨?_, ?_⟩
  all_goals first
    | assumption
    | exact ⟨u1, u2, u3⟩
    | (constructor <;> grind [SameCore, → alarmOn_ok, → alarmOff_ok, → applyState_core, setManufacturer_fields])
    | grind [SameCore]

theorem usable {db : DB} {n : Node} {s : NSt} (hn : FreshOk n) (hu : Usable n) (h : NReach db n s) :
    Usable s.node ∧ s.crashed = none := by
  obtain ⟨ls, h⟩ := h
  have := run_induct (db := db) (P := fun s => (Usable s.node ∧ s.crashed = none) ∧ IdInv s ∧ WakeInv s)
    (fun s l s' hp hs => ⟨usable_step hp.1.1 hp.1.2 hp.2.1 hp.2.2 hs, id_step hp.2.1 hs, wake_step hp.2.2 hs⟩)
    ls _ _ ⟨⟨hu, rfl⟩, idInv_start hn, wakeInv_start n⟩ h
  exact this.1

end Verif.Lemmas.NodeM
