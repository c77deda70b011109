import Verif.Spec.NodeRace
import Verif.Lemmas.Ctl

/-
Which fields a step of a node accesses.
-/

set_option linter.unusedSimpArgs false
set_option linter.unusedVariables false
set_option maxHeartbeats 4000000

namespace Verif.Lemmas.NodeRace

open Verif.Go Verif.Model Verif.Lemmas.NodeM Verif.Lemmas.Ctl Verif.Spec.NodeRace

theorem alarmOn_states {n n' : Node} {a : Alarm} (h : n.alarmOn a = .ok n') :
    ∃ mb mf, n' = { n with stateBool := mb, stateFloat := mf } := by
  unfold Node.alarmOn Node.setBool Node.setFloat mapPut at h
  cases hb : n.stateBool <;> cases hf : n.stateFloat <;> simp_all [Except.bind] <;> grind

theorem alarmOff_states {n n' : Node} (h : n.alarmOff = .ok n') :
    ∃ mb mf, n' = { n with stateBool := mb, stateFloat := mf } := by
  unfold Node.alarmOff Node.setBool Node.setFloat mapPut at h
  cases hb : n.stateBool <;> cases hf : n.stateFloat <;> simp_all [Except.bind] <;> grind

theorem applyState_states {n n' : Node} {r : Report} {b : Bool} (h : n.applyState r = .ok (n', b)) :
    (∃ mb mf, n' = { n with stateBool := mb, stateFloat := mf }) ∧ (b = changesState r ∨ ∃ a, r = .alarm a) := by
  unfold Node.applyState Node.setBool Node.setFloat mapPut at h
  cases hb : n.stateBool <;> cases hf : n.stateFloat <;> cases r <;> simp_all [Except.bind, changesState] <;> grind

theorem setManufacturer_rest (db : DB) (n : Node) (m : ManufacturerSpecific) :
    (n.setManufacturer db m).isAwake = n.isAwake ∧ (n.setManufacturer db m).protocolInfo = n.protocolInfo ∧
    (n.setManufacturer db m).endpoints = n.endpoints ∧ (n.setManufacturer db m).stateBool = n.stateBool ∧
    (n.setManufacturer db m).stateFloat = n.stateFloat ∧ (n.setManufacturer db m).statesOk = n.statesOk ∧
    (n.setManufacturer db m).hasConn = n.hasConn ∧ (n.setManufacturer db m).identified = n.identified := by
  unfold Node.setManufacturer
  cases hd : db.device m.manufacturer m.type m.id <;> simp

theorem same_manufacturer {db : DB} {x z : NSt} {m : ManufacturerSpecific} {f : Field} (h1 : f ≠ .manufacturer) (h2 : f ≠ .names)
    (h3 : f ≠ .classes) (hz : z.node = x.node.setManufacturer db m) (ha : z.awake = x.awake) : Same x z f := by
  obtain ⟨q1, q2, q3, q4, q5, q6, q7, q8⟩ := setManufacturer_rest db x.node m
  rw [← hz] at q1 q2 q3 q4 q5 q6 q7 q8
  unfold Same setField
  cases f <;> first
    | contradiction
    | simp only [← q1, ← q2, ← q3, ← q4, ← q5, ← q6, ← q7, ← q8, ← ha]

/-- A step of a node changes only the fields that are listed as written by its task. -/
theorem nwrites_sound {db : DB} {x x' : NSt} {l : NLabel} {t : Task} {f : Field} (h : nodeStep db x l = some x')
    (ht : Does t l) (hw : nWrites x t f = false) : Same x x' f := by
  node_step h
  all_goals (cases t <;> simp only [Does, reduceCtorEq, exists_const, NLabel.ident.injEq, NLabel.proc.injEq, NLabel.report.injEq] at ht)
  all_goals try (obtain ⟨_, rfl, -⟩ := ht)
  all_goals try subst ht
  all_goals try obtain ⟨mb, mf, rfl⟩ := alarmOn_states (by assumption)
  all_goals try obtain ⟨mb, mf, rfl⟩ := alarmOff_states (by assumption)
  all_goals try obtain ⟨⟨mb, mf, rfl⟩, e3⟩ := applyState_states (by assumption)
  all_goals (cases f <;> first
    | rfl
    | (simp_all [Same, setField, nWrites, changesState, setManufacturer_rest]; done)
    | (exfalso; simp_all [nWrites, changesState]; done)
    | exact same_manufacturer (by decide) (by decide) (by decide) rfl rfl
    | (simp only [nWrites] at hw; unfold Same setField; grind [changesState, setManufacturer_rest]))

theorem alarmOn_off {a : Alarm} (y x : NSt) {f : Field} (hf : f ≠ .states) :
    (setField f y x).node.alarmOn a = (x.node.alarmOn a).map fun m => (setField f y { x with node := m }).node := by
  unfold Node.alarmOn Node.setBool Node.setFloat mapPut
  cases f <;> cases hb : x.node.stateBool <;> cases hq : x.node.stateFloat <;>
    simp_all [Except.bind, Except.map, setField] <;> grind

theorem alarmOff_off (y x : NSt) {f : Field} (hf : f ≠ .states) :
    (setField f y x).node.alarmOff = x.node.alarmOff.map fun m => (setField f y { x with node := m }).node := by
  unfold Node.alarmOff Node.setBool Node.setFloat mapPut
  cases f <;> cases hb : x.node.stateBool <;> cases hq : x.node.stateFloat <;>
    simp_all [Except.bind, Except.map, setField]

theorem applyState_off {r : Report} (y x : NSt) {f : Field} (hf : f ≠ .states ∨ changesState r = false)
    (hr : ∀ a, r ≠ .alarm a) :
    (setField f y x).node.applyState r =
      (x.node.applyState r).map fun m => ((setField f y { x with node := m.1 }).node, m.2) := by
  unfold Node.applyState Node.setBool Node.setFloat mapPut
  cases f <;> cases hb : x.node.stateBool <;> cases hq : x.node.stateFloat <;> cases r <;>
    simp_all [Except.bind, Except.map, setField, changesState]

theorem setField_rest (f : Field) (y x : NSt) : (setField f y x).crashed = x.crashed ∧ (setField f y x).lock = x.lock ∧
    (setField f y x).ident = x.ident ∧ (setField f y x).proc = x.proc ∧ (setField f y x).closed = x.closed ∧
    (setField f y x).node.id = x.node.id := by cases f <;> simp [setField]

/-- A field that the task does not access has no influence on the step. -/
theorem nreads_sound {db : DB} {x x' : NSt} (y : NSt) {l : NLabel} {t : Task} {f : Field} (h : nodeStep db x l = some x')
    (ht : Does t l) (hr : nReads x t f = false) (hw : nWrites x t f = false) :
    nodeStep db (setField f y x) l = some (setField f y x') := by
  obtain ⟨q1, q2, q3, q4, q5, q6⟩ := setField_rest f y x
  unfold nodeStep at h ⊢
  rw [q1]
  split at h
  · cases h
  rw [if_neg (by assumption)]
  cases t with
  | setup =>
    cases ht
    cases f <;> simp_all [setField, nWrites] <;> grind
  | proc j =>
    cases ht
    simp only [procStep, q4, q2] at h ⊢
    cases hp : x.proc j with
    | pulse =>
      have e := alarmOff_off y x (f := f) (by rintro rfl; simp_all [nWrites])
      rw [e]
      simp only [hp] at h ⊢
      split at h
      · rename_i hl
        rw [if_pos hl]
        cases ha : x.node.alarmOff with
        | error p => simp only [ha, Except.map] at h ⊢; injection h with h; subst h; cases f <;> rfl
        | ok n => simp only [ha, Except.map] at h ⊢; injection h with h; subst h; cases f <;> first | rfl | simp_all [nWrites]
      · cases h
    | wakeClose =>
      simp only [hp] at h ⊢
      cases f <;> simp_all [setField, nReads] <;> grind
    | wakeNil =>
      simp only [hp] at h ⊢
      cases f <;> simp_all [setField, nWrites] <;> grind
    | _ => simp [hp] at h
  | report r =>
    have ht : l = .report r := ht
    subst ht
    simp only [q2] at h ⊢
    split at h
    · rename_i hl
      rw [if_pos hl]
      injection h with h
      subst h
      congr 1
      unfold reportStep
      split
      · rename_i a
        split
        · rename_i hs
          have e := alarmOn_off (a := a) y x (f := f) (by rintro rfl; simp_all [nWrites, changesState])
          rw [e]
          cases ha : x.node.alarmOn a with
          | error p => simp only [Except.map]; cases f <;> rfl
          | ok n => simp only [Except.map]; cases f <;> first | rfl | simp_all [nWrites, changesState]
        · rfl
      · cases f <;> simp_all [setField, nReads] <;> grind
      · rename_i h1 h2
        have e := applyState_off (r := r) y x (f := f) (by
          by_cases hf : f = .states
          · subst hf; exact .inr (by simpa [nWrites] using hw)
          · exact .inl hf) h1
        rw [e]
        cases ha : x.node.applyState r with
        | error p => simp only [Except.map]; cases f <;> rfl
        | ok n =>
          obtain ⟨n, b⟩ := n
          simp only [Except.map]
          cases b
          · rfl
          · have e3 := (applyState_states ha).2.resolve_right (by rintro ⟨a, ha⟩; exact h1 a ha)
            cases f <;> first | rfl | simp [nWrites, ← e3] at hw
    · cases h
  | ident i =>
    obtain ⟨a, rfl⟩ := ht
    simp only [identStep, NSt.push, NSt.goto, NSt.write, NSt.await, q2, q3, q5, q6] at h ⊢
    simp only [nReads] at hr
    simp only [nWrites] at hw
    clear q1 q2 q3 q4 q5 q6
    have hm : ∀ m, f ≠ .manufacturer → f ≠ .names → f ≠ .classes →
        (setField f y x).node.setManufacturer db m = (setField f y { x with node := x.node.setManufacturer db m }).node := by
      intro m h1 h2 h3
      unfold Node.setManufacturer
      cases hd : db.device m.manufacturer m.type m.id <;> cases f <;> simp_all [setField]
    cases hp : x.ident i with
    | reply p =>
      cases p
      · simp only [hp] at h hr hw ⊢
        repeat' split at h
        all_goals first
          | (cases h; done)
          | (injection h with h; subst h)
        · rw [if_pos (by assumption), hm _ (by rintro rfl; simp at hw) (by rintro rfl; simp at hw) (by rintro rfl; simp at hw)]
          cases f <;> rfl
        · cases f <;> rfl
      · simp only [hp] at h hr hw ⊢
        repeat' split at h
        all_goals first
          | (cases h; done)
          | (injection h with h; subst h)
        · rw [if_pos (by assumption)]
          cases f <;> first | rfl | (simp at hw; done) | (simp at hr; done)
        · cases f <;> rfl
      · simp [hp] at h
    | query todo =>
      cases todo
      · simp only [hp] at h hr hw ⊢
        split at h
        · injection h with h; subst h
          rw [if_pos (by assumption)]
          cases f <;> first | rfl | (simp at hw; done)
        · cases h
      · rename_i v todo
        have hc : f ≠ .conn := by rintro rfl; simp [hp] at hr
        have hq : (setField f y x).node.hasConn = x.node.hasConn := by cases f <;> first | rfl | simp at hc
        simp only [hp, hq] at h ⊢
        by_cases h1 : v.id = ccSwitchBinary
        · simp only [if_pos h1] at h ⊢
          split at h <;> (injection h with h; subst h) <;> rename_i hk
          · rw [if_pos hk]; cases f <;> rfl
          · rw [if_neg hk]; cases f <;> rfl
        · simp only [if_neg h1] at h ⊢
          by_cases h2 : v.id = ccSwitchMultilevel
          · simp only [if_pos h2] at h ⊢
            split at h <;> (injection h with h; subst h) <;> rename_i hk
            · rw [if_pos hk]; cases f <;> rfl
            · rw [if_neg hk]; cases f <;> rfl
          · simp only [if_neg h2] at h ⊢
            by_cases h3 : v.id = ccSensorMultiLevel
            · simp only [if_pos h3] at h ⊢
              split at h <;> (injection h with h; subst h) <;> rename_i hk
              · rw [if_pos hk]; cases f <;> rfl
              · rw [if_neg hk]; cases f <;> rfl
            · simp only [if_neg h3] at h ⊢
              injection h with h; subst h
              cases f <;> rfl
    | send p =>
      cases p
      all_goals simp only [hp] at h hr hw ⊢
      all_goals repeat' split at h
      all_goals first
        | (cases h; done)
        | (injection h with h; subst h)
      all_goals (cases f <;> first | rfl | (simp at hr; done) | (simp at hw; done) | (simp only [setField]; simp_all; done))
    | _ =>
      simp only [hp] at h hr hw ⊢
      repeat' split at h
      all_goals first
        | (cases h; done)
        | (injection h with h; subst h)
      all_goals (cases f <;> first
        | rfl
        | (simp at hr; done)
        | (simp at hw; done)
        | (simp only [setField]; simp only [*, if_true, if_false, if_pos, if_neg, reduceCtorEq, not_false_eq_true]; done)
        | (exfalso; simp_all; done))

/-- Without an event the function for events is not read. -/
theorem no_push {db : DB} {x x' : NSt} {l : NLabel} {t : Task} (h : nodeStep db x l = some x')
    (ht : Does t l) (hr : nReads x t .conn = false) : nodePushes x' ≤ nodePushes x := by
  node_step h
  all_goals (cases t <;> simp only [Does, reduceCtorEq, exists_const, NLabel.ident.injEq, NLabel.proc.injEq, NLabel.report.injEq] at ht)
  all_goals try (obtain ⟨_, rfl, -⟩ := ht)
  all_goals try subst ht
  all_goals try have e3 := (applyState_states (by assumption)).2
  all_goals first
    | exact Nat.le_refl _
    | (simp [nodePushes]; done)
    | (exfalso; simp_all [nReads, changesState]; done)

/-- Setting a field twice. -/
theorem setField_push (f : Field) (y x : NSt) : nodePushes (setField f y x) = nodePushes x := by
  cases f <;> rfl

theorem setField_conn {f : Field} (y x : NSt) (h : f ≠ .conn) : (setField f y x).node.hasConn = x.node.hasConn := by
  cases f <;> first | rfl | simp at h

theorem setField_identify {db : DB} {f : Field} {x x' : NSt} (y : NSt) (h : nodeStep db x .identify = some x') :
    nodeStep db (setField f y x) .identify = some (setField f y x') ∧ Same x x' f := by
  unfold nodeStep at h ⊢
  rw [(setField_rest f y x).1]
  split at h
  · cases h
  injection h with h
  subst h
  rw [if_neg (by assumption)]
  cases f <;> exact ⟨rfl, rfl⟩

/-- An access under the lock waits for the lock. An answer that does not help is dropped without an access. -/
theorem nguard_sound {db : DB} {x x' : NSt} {l : NLabel} {t : Task} {f : Field} (h : nodeStep db x l = some x')
    (hi : WakeInv x) (ht : Does t l) (ha : nReads x t f = true ∨ nWrites x t f = true) (hg : nGuarded x t f = true) :
    x.lock = none ∨ (∃ j, t = .proc j ∧ x.lock = some j) ∨ ∃ i, t = .ident i ∧ x' = x.goto i .sleep := by
  have o1 := hi.own1
  have o2 := hi.own2
  clear hi
  node_step h
  all_goals (cases t <;> simp only [Does, reduceCtorEq, exists_const, NLabel.ident.injEq, NLabel.proc.injEq, NLabel.report.injEq] at ht)
  all_goals try (obtain ⟨_, rfl, -⟩ := ht)
  all_goals try subst ht
  all_goals first
    | (left; assumption)
    | (right; left; exact ⟨_, rfl, o1 _ (by assumption)⟩)
    | (right; left; exact ⟨_, rfl, o2 _ (by assumption)⟩)
    | (right; right; exact ⟨_, rfl, rfl⟩)
    | (exfalso; cases f <;> simp_all [nReads, nWrites, nGuarded]; done)

end Verif.Lemmas.NodeRace
