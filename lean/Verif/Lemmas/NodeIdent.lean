import Verif.Lemmas.NodeM

/-
Lemmas about identification: the classes it leaves, the steps it takes, and wake-ups.
-/

set_option linter.unusedSimpArgs false
set_option linter.unusedVariables false
set_option maxHeartbeats 4000000

namespace Verif.Lemmas.NodeM

open Verif.Go Verif.Model

theorem nIdent_mono {db : DB} {s s' : NSt} {l : NLabel} (h : nodeStep db s l = some s') :
    s.nIdent ≤ s'.nIdent := by
  node_step h
  all_goals first | exact Nat.le_refl _ | exact Nat.le_succ _

/-! ### Classes -/

def purpose : IdentAt → Option Purpose
  | .awTest p | .awNil p | .awMake p | .awRet p | .awWait p _ | .send p | .reply p => some p
  | _ => none

/-- Positions reached only through the assignment of the mandatory classes, without a manufacturer
reply since. -/
def clean : IdentAt → Bool
  | .manufacturer | .endpoints | .states | .finish | .mark | .done => true
  | _ => false

structure OneInv (db : DB) (s : NSt) : Prop where
  one : s.nIdent ≤ 1
  man : ∀ i, purpose (s.ident i) = some .manufacturer → s.node.manufacturer = none
  cls : ∀ i, clean (s.ident i) = true → s.node.statesOk = true →
    ∀ p, s.node.protocolInfo = some p → s.node.classes = db.mandatory p.generic p.specific
  fin : s.node.identified = true → ∃ i, s.ident i = .done

theorem one_step {db : DB} {s s' : NSt} {l : NLabel} (hw : WakeInv s) (hd : IdInv s) (hi : OneInv db s)
    (h : nodeStep db s l = some s') (h1 : s'.nIdent ≤ 1) : OneInv db s' := by
  obtain ⟨k1, k2, k3, k4⟩ := hi
  have f := hw.fresh
  have g := hd.ok
  have g1 := hd.l1
  have a1 : purpose .absent = none := rfl
  have a2 : clean .absent = false := rfl
  clear hw hd
  node_step h
  all_goals try have q := congrArg purpose (by assumption : NSt.ident s _ = _)
  all_goals try conv at q => rhs; whnf
  all_goals try have q' := congrArg clean (by assumption : NSt.ident s _ = _)
  all_goals try conv at q' => rhs; whnf
  all_goals constructor
  all_goals first
    | assumption
    | exact fun _ => ⟨_, if_pos rfl⟩
    | (simp only [] at h1; grind [updN, purpose, clean, SameCore, → alarmOn_ok, → alarmOff_ok, → applyState_core, setManufacturer_fields])


/-- Invariants that hold as long as there is at most one identification. -/
theorem run_induct_one {db : DB} {P : NSt → Prop}
    (hstep : ∀ s l s', P s → nodeStep db s l = some s' → s'.nIdent ≤ 1 → P s') :
    ∀ ls s0 s, P s0 → nodeRun db s0 ls = some s → s.nIdent ≤ 1 → P s := by
  intro ls s0 s hp h h1
  refine (run_induct (db := db) (P := fun s => s.nIdent ≤ 1 → P s) ?_ ls s0 s (fun _ => hp) h) h1
  intro s l s' hp hs h1
  exact hstep s l s' (hp (Nat.le_trans (nIdent_mono hs) h1)) hs h1

theorem oneInv {db : DB} {n : Node} {s : NSt} (hn : FreshOk n) (hf : n.identified = false)
    (h : NReach db n s) (h1 : s.nIdent ≤ 1) : OneInv db s := by
  obtain ⟨ls, h⟩ := h
  refine (run_induct_one (db := db) (P := fun s => (WakeInv s ∧ IdInv s) ∧ OneInv db s)
    (fun s l s' hp hs h1 => ⟨⟨wake_step hp.1.1 hs, id_step hp.1.2 hs⟩, one_step hp.1.1 hp.1.2 hp.2 hs h1⟩) ls _ _
    ⟨⟨wakeInv_start n, idInv_start hn⟩, ?_⟩ h h1).2
  constructor <;> simp [NSt.start, purpose, clean, hf]

/-! ### Wake-ups -/

/-- Nothing touches the lock or the channel here. -/
def quiet : IdentAt → Bool
  | .absent | .info | .classes | .manufacturer | .endpoints | .endpointsEvent | .states | .finish | .mark | .done
  | .awTest _ | .awNil _ | .awMake _ => true
  | _ => false

/-- After a wake-up. -/
def after : IdentAt → Bool
  | .send _ | .reply _ | .query _ | .sensor _ | .sleep | .top => true
  | _ => false

/-- Requests of an awake node are sent from here. -/
def awakeAt : IdentAt → Bool
  | .send _ | .reply _ | .query _ | .sensor _ => true
  | _ => false

/-- About to wait or waiting. -/
def waiting : IdentAt → Bool
  | .awRet _ | .awWait _ _ => true
  | _ => false

/-- The channel waited on. -/
def waitsOn : IdentAt → Option Nat
  | .awWait _ c => c
  | _ => none

structure SleepInv (s : NSt) : Prop where
  one : s.nIdent ≤ 1
  asleep : s.node.isAwake = false
  qui : ∀ i, quiet (s.ident i) = true → i = 0 → s.lock = none ∧ s.awake = none
  aft : ∀ i, after (s.ident i) = true → s.lock = none → s.awake = none
  wai : ∀ i, waiting (s.ident i) = true → s.lock ≠ none → s.waitAt i < s.nWake
  clo : ∀ i c, waitsOn (s.ident i) = some c → s.closed c = true → s.waitAt i < s.nWake
  awk : ∀ i, awakeAt (s.ident i) = true → s.waitAt i < s.nWake
  sam : ∀ i c c', waitsOn (s.ident i) = some c → s.awake = some c' → c' = c
  le : ∀ i, s.waitAt i ≤ s.nWake

/-- The node says that it is not listening. -/
def notListening : NLabel → Prop
  | .ident _ (.info p) => p.listening = false
  | _ => True

theorem waitsOn_waiting {a : IdentAt} {c : Nat} (h : waitsOn a = some c) : waiting a = true := by
  cases a <;> simp_all [waitsOn, waiting]

theorem sleep_step {db : DB} {s s' : NSt} {l : NLabel} (hw : WakeInv s) (hi : SleepInv s)
    (hl : notListening l) (h : nodeStep db s l = some s') (h1 : s'.nIdent ≤ 1) : SleepInv s' := by
  obtain ⟨k1, k2, k3, k4, k5, k6, k7, k8, k9⟩ := hi
  have k10 : ∀ i c, waitsOn (s.ident i) = some c → waiting (s.ident i) = true := fun i c => waitsOn_waiting
  have w0 : s.awake = none ∨ ∃ c, s.awake = some c := by cases s.awake <;> simp
  have f := hw.fresh
  have w1 := hw.free
  have w2 := hw.own1
  have w3 := hw.own2
  have w4 := hw.closing
  clear hw
  node_step h
  all_goals try have q1 := congrArg quiet (by assumption : NSt.ident s _ = _)
  all_goals try conv at q1 => rhs; whnf
  all_goals try have q2 := congrArg after (by assumption : NSt.ident s _ = _)
  all_goals try conv at q2 => rhs; whnf
  all_goals try have q3 := congrArg awakeAt (by assumption : NSt.ident s _ = _)
  all_goals try conv at q3 => rhs; whnf
  all_goals try have q4 := congrArg waiting (by assumption : NSt.ident s _ = _)
  all_goals try conv at q4 => rhs; whnf
  all_goals try have q5 := congrArg waitsOn (by assumption : NSt.ident s _ = _)
  all_goals try conv at q5 => rhs; whnf
  all_goals constructor
  all_goals first
    | assumption
    | (simp only [] at h1; grind [updN, quiet, after, awakeAt, waiting, waitsOn, notListening, SameCore, → alarmOn_ok, → alarmOff_ok, → applyState_core, setManufacturer_fields])


theorem sleepInv {db : DB} {n : Node} {s : NSt} {ls : List NLabel} (hn : n.isAwake = false)
    (hl : ∀ l ∈ ls, notListening l) (h : nodeRun db (NSt.start n) ls = some s) (h1 : s.nIdent ≤ 1) :
    SleepInv s := by
  have key : ∀ ls s0, (∀ l ∈ ls, notListening l) → WakeInv s0 ∧ (s0.nIdent ≤ 1 → SleepInv s0) →
      ∀ s, nodeRun db s0 ls = some s → WakeInv s ∧ (s.nIdent ≤ 1 → SleepInv s) := by
    intro ls
    induction ls with
    | nil => intro s0 _ hp s h; cases h; exact hp
    | cons l ls ih =>
      intro s0 hl hp s h
      simp only [nodeRun] at h
      cases hs : nodeStep db s0 l with
      | none => rw [hs] at h; cases h
      | some s1 =>
        rw [hs] at h
        exact ih s1 (fun l' hl' => hl l' (List.mem_cons_of_mem _ hl'))
          ⟨wake_step hp.1 hs, fun h1 => sleep_step hp.1 (hp.2 (Nat.le_trans (nIdent_mono hs) h1))
            (hl l (List.mem_cons_self)) hs h1⟩ s h
  refine (key ls _ hl ⟨wakeInv_start n, fun _ => ?_⟩ s h).2 h1
  constructor <;> simp [NSt.start, quiet, after, awakeAt, waiting, waitsOn, hn]

/-! ### Steps of an identification whose requests are answered -/

/-- The answer is the one asked for. -/
def Answered (s : NSt) : NLabel → Prop
  | .ident i a =>
    match s.ident i with
    | .info => ∃ p, a = .info p
    | .reply .manufacturer => ∃ m, a = .report (.manufacturerSpecific m)
    | .reply .endpoints => ∃ m, a = .report (.multiChannelEndpoints m)
    | _ => True
  | _ => True

def pRank (L : Nat) : Purpose → Nat
  | .states => 2 * L + 3
  | .endpoints => 2 * L + 11
  | .manufacturer => 2 * L + 19

def stRank (L : Nat) : IdentAt → Nat
  | .absent | .done => 0
  | .mark => 1
  | .finish => 2
  | .query t => 2 * t.length + 3
  | .sensor t => 2 * t.length + 4
  | .reply p => pRank L p
  | .send p => pRank L p + 1
  | .awWait p _ => pRank L p + 2
  | .awRet p => pRank L p + 3
  | .awMake p => pRank L p + 4
  | .awNil p => pRank L p + 5
  | .awTest p => pRank L p + 6
  | .states => 2 * L + 10
  | .endpoints => 2 * L + 18
  | .manufacturer => 2 * L + 26
  | .classes => 2 * L + 27
  | .info => 2 * L + 28
  | .top => 2 * L + 29
  | .sleep => 2 * L + 30
  | .endpointsEvent => 2 * L + 30

/-- What is not known yet. -/
def missing (n : Node) : Nat :=
  (if n.protocolInfo.isNone then 1 else 0) + (if n.manufacturer.isNone then 1 else 0) +
  (if n.endpoints.isNone then 1 else 0) + (if n.statesOk then 0 else 1)

/-- Steps left at most. -/
def stepsLeft (L : Nat) (s : NSt) : Nat := (2 * L + 31) * missing s.node + stRank L (s.ident 0)

/-- Requests left at most. -/
def reqLeft (L : Nat) (s : NSt) : Nat :=
  (if s.node.protocolInfo.isNone && decide (s.ident 0 ≠ .info) then 1 else 0) +
  (if s.node.manufacturer.isNone && decide (s.ident 0 ≠ .reply .manufacturer) then 1 else 0) +
  (if s.node.endpoints.isNone && decide (s.ident 0 ≠ .reply .endpoints) then 1 else 0) +
  (match s.ident 0 with
   | .query t | .sensor t => t.length
   | _ => if s.node.statesOk then 0 else L)

/-- Requests sent. -/
def isSent : NEv → Bool
  | .sent .. => true
  | _ => false

def nSent (s : NSt) : Nat := s.hist.countP isSent

/-- Positions after the assignment of the classes. -/
def classed : IdentAt → Bool
  | .absent | .top | .info | .sleep | .classes | .endpointsEvent => false
  | _ => true

/-- Positions before the manufacturer reply. -/
def early : IdentAt → Bool
  | .manufacturer => true
  | .awTest p | .awNil p | .awMake p | .awRet p | .awWait p _ | .send p | .reply p => p == .manufacturer
  | _ => false

/-- Positions between finding something missing and getting it. -/
def lacks : IdentAt → Option Purpose
  | .awTest p | .awNil p | .awMake p | .awRet p | .awWait p _ | .send p | .reply p => some p
  | .query _ | .sensor _ => some .states
  | _ => none

/-- Bounds on the lists in the database. -/
structure DBBound (db : DB) (M D : Nat) : Prop where
  mand : ∀ g s cs, db.mandatory g s = some cs → cs.length ≤ M
  dev : ∀ a b c d, db.device a b c = some d → d.classes.length ≤ D

structure LenInv (M D : Nat) (s : NSt) : Prop where
  one : s.nIdent ≤ 1
  len : ∀ i, classed (s.ident i) = true → (s.node.classes.getD []).length ≤ M + D
  ear : ∀ i, early (s.ident i) = true → (s.node.classes.getD []).length ≤ M
  inf : ∀ i, s.ident i = .info → s.node.protocolInfo = none
  man : ∀ i, lacks (s.ident i) = some .manufacturer → s.node.manufacturer = none
  eps : ∀ i, lacks (s.ident i) = some .endpoints → s.node.endpoints = none
  sts : ∀ i, lacks (s.ident i) = some .states → s.node.statesOk = false

theorem setManufacturer_len {db : DB} {M D : Nat} (hb : DBBound db M D) {n : Node} (m : ManufacturerSpecific)
    (h : (n.classes.getD []).length ≤ M) : ((n.setManufacturer db m).classes.getD []).length ≤ M + D := by
  unfold Node.setManufacturer
  simp only
  cases hd : db.device m.manufacturer m.type m.id with
  | none => simp only; omega
  | some d =>
    have := hb.dev _ _ _ _ hd
    simp only
    split
    · simp
    · simp only [Option.getD_some, List.length_append]; omega

theorem len_step {db : DB} {M D : Nat} (hb : DBBound db M D) {s s' : NSt} {l : NLabel} (hw : WakeInv s)
    (hi : LenInv M D s) (h : nodeStep db s l = some s') (h1 : s'.nIdent ≤ 1) : LenInv M D s' := by
  obtain ⟨k1, k2, k3, k4, k5, k6, k7⟩ := hi
  have f := hw.fresh
  have b1 := hb.mand
  have b3 : ∀ g s, ((db.mandatory g s).getD []).length ≤ M := by
    intro g s; cases hm : db.mandatory g s with
    | none => simp
    | some cs => exact b1 _ _ _ hm
  have b2 := @setManufacturer_len db M D hb
  clear hw hb b1
  node_step h
  all_goals try have q1 := congrArg classed (by assumption : NSt.ident s _ = _)
  all_goals try conv at q1 => rhs; whnf
  all_goals try have q2 := congrArg early (by assumption : NSt.ident s _ = _)
  all_goals try conv at q2 => rhs; whnf
  all_goals try have q3 := congrArg lacks (by assumption : NSt.ident s _ = _)
  all_goals try conv at q3 => rhs; whnf
  all_goals constructor
  all_goals first
    | assumption
    | (simp only [] at h1; grind [updN, classed, early, lacks, SameCore, → alarmOn_ok, → alarmOff_ok, → applyState_core, setManufacturer_fields])

/-- The steps of identification. -/
def isIdent : NLabel → Bool
  | .ident .. => true
  | _ => false

theorem missing_core {n n' : Node} (h : SameCore n n') : missing n' = missing n := by
  simp [missing, h.protocolInfo, h.manufacturer, h.endpoints, h.statesOk]

theorem ident_zero {db : DB} {s s' : NSt} {i : Nat} {a : Answer} (hw : WakeInv s) (h1 : s.nIdent ≤ 1)
    (h : nodeStep db s (.ident i a) = some s') : i = 0 := by
  have f := hw.fresh i
  cases i with
  | zero => rfl
  | succ i =>
    exfalso
    have : s.ident (i + 1) = .absent := f (by omega)
    unfold nodeStep at h
    split at h
    · cases h
    · simp only [identStep, this] at h; cases h

end Verif.Lemmas.NodeM
