import Verif.Lemmas.NodeIdent

/-
Termination of an identification whose requests are answered.
-/

set_option linter.unusedSimpArgs false
set_option linter.unusedVariables false
set_option maxHeartbeats 4000000

namespace Verif.Lemmas.NodeM

open Verif.Go Verif.Model

theorem left_step {db : DB} {M D : Nat} {s s' : NSt} {i : Nat} {a : Answer} (hw : WakeInv s)
    (hi : LenInv M D s) (ha : Answered s (.ident i a)) (h : nodeStep db s (.ident i a) = some s')
    (hc : s'.crashed = none) :
    stepsLeft (M + D) s' < stepsLeft (M + D) s ∧
    nSent s' + reqLeft (M + D) s' ≤ nSent s + reqLeft (M + D) s := by
  have : i = 0 := ident_zero hw hi.one h
  subst this
  have hlen : classed (s.ident 0) = true → (s.node.classes.getD []).length ≤ M + D := hi.len 0
  have k4 := hi.inf 0
  have k5 := hi.man 0
  have k6 := hi.eps 0
  have k7 := hi.sts 0
  have hal := hw.alive 0
  clear hw hi
  generalize hL : M + D = L at *
  clear hL
  unfold nodeStep at h
  split at h
  · cases h
  simp only [identStep, NSt.push, NSt.goto, NSt.write, NSt.await] at h
  all_goals repeat' split at h
  all_goals try injection h with h
  all_goals try subst h
  all_goals try (cases h; done)
  all_goals try (cases hc; done)
  all_goals (
    have q := (by assumption : NSt.ident s 0 = _)
    simp only [q, Answered, classed, lacks, dead] at ha hlen k4 k5 k6 k7 hal
    simp only [stepsLeft, reqLeft, nSent, missing, updN, q, if_pos, stRank, pRank, List.countP_cons, isSent,
      setManufacturer_fields])
  all_goals clear hc
  all_goals
    cases e1 : s.node.protocolInfo <;> cases e2 : s.node.manufacturer <;>
      cases e3 : s.node.endpoints <;> cases e4 : s.node.statesOk <;>
      first
        | (exfalso; simp_all; done)
        | (simp [e1, e2, e3, e4] at *; done)
        | (simp [e1, e2, e3, e4] at *; omega)
        | (simp [e1, e2, e3, e4]; first | omega | grind | (apply Nat.le_of_eq; ac_rfl))


/-- Steps of other goroutines take nothing away. -/
theorem left_other {db : DB} {L : Nat} {s s' : NSt} {l : NLabel} (hw : WakeInv s)
    (hl : isIdent l = false) (hi : l ≠ .identify) (h : nodeStep db s l = some s') :
    stepsLeft L s' = stepsLeft L s ∧ nSent s' = nSent s ∧ reqLeft L s' = reqLeft L s := by
  cases l with
  | identify => exact absurd rfl hi
  | ident i a => cases hl
  | report r =>
    unfold nodeStep at h
    split at h
    · cases h
    simp only at h
    split at h
    · injection h with h; subst h
      unfold reportStep
      repeat' split
      all_goals first
        | exact ⟨rfl, rfl, rfl⟩
        | (have c := (alarmOn_ok (by assumption)).1
           refine ⟨?_, ?_, ?_⟩ <;> simp [stepsLeft, nSent, NSt.push, isSent, missing_core c] <;>
             simp only [reqLeft, c.protocolInfo, c.manufacturer, c.endpoints, c.statesOk])
        | (have c := applyState_core (by assumption)
           refine ⟨?_, ?_, ?_⟩ <;> simp [stepsLeft, nSent, NSt.push, isSent, missing_core c] <;>
             simp only [reqLeft, c.protocolInfo, c.manufacturer, c.endpoints, c.statesOk])
    · cases h
  | proc j =>
    unfold nodeStep at h
    split at h
    · cases h
    simp only [procStep] at h
    repeat' split at h
    all_goals try injection h with h
    all_goals try subst h
    all_goals first
      | (cases h; done)
      | exact ⟨rfl, rfl, rfl⟩
      | (have c := (alarmOff_ok (by assumption)).1
         refine ⟨?_, ?_, ?_⟩ <;> simp [stepsLeft, nSent, NSt.push, isSent, missing_core c] <;>
             simp only [reqLeft, c.protocolInfo, c.manufacturer, c.endpoints, c.statesOk])

  | setup =>
    unfold nodeStep at h
    split at h
    · cases h
    injection h with h; subst h
    exact ⟨rfl, rfl, rfl⟩

/-- Runs in which every request is answered as asked, and no identification is started. -/
def AnsweredRun (db : DB) : NSt → List NLabel → NSt → Prop
  | s, [], s' => s' = s
  | s, l :: ls, s' => Answered s l ∧ l ≠ .identify ∧
      ∃ s1, nodeStep db s l = some s1 ∧ AnsweredRun db s1 ls s'

theorem step_one {db : DB} {s s' : NSt} {l : NLabel} (hl : l ≠ .identify) (h : nodeStep db s l = some s') :
    s'.nIdent = s.nIdent := by
  node_step h
  all_goals first | rfl | exact absurd rfl hl

theorem answered_run {db : DB} {M D : Nat} (hb : DBBound db M D) (ls : List NLabel) :
    ∀ s s', WakeInv s → LenInv M D s → AnsweredRun db s ls s' → s'.crashed = none →
      (ls.countP isIdent) + stepsLeft (M + D) s' ≤ stepsLeft (M + D) s ∧
      nSent s' + reqLeft (M + D) s' ≤ nSent s + reqLeft (M + D) s := by
  induction ls with
  | nil => intro s s' _ _ h _; cases h; simp
  | cons l ls ih =>
    intro s s' hw hi h hc
    obtain ⟨ha, hn, s1, hs, hr⟩ := h
    have h1 : s1.nIdent ≤ 1 := by rw [step_one hn hs]; exact hi.one
    have hc1 : s1.crashed = none := by
      cases ls with
      | nil => cases hr; exact hc
      | cons l' ls => obtain ⟨_, _, s2, h2, _⟩ := hr; unfold nodeStep at h2; split at h2
                      · cases h2
                      · rename_i q; simpa using q
    obtain ⟨r1, r2⟩ := ih s1 s' (wake_step hw hs) (len_step hb hw hi hs h1) hr hc
    cases hl : isIdent l with
    | true =>
      cases l <;> simp [isIdent] at hl
      obtain ⟨e1, e2⟩ := left_step hw hi ha hs hc1
      simp only [List.countP_cons, isIdent, if_true]
      omega
    | false =>
      obtain ⟨e1, e2, e3⟩ := left_other (L := M + D) hw hl hn hs
      simp only [List.countP_cons, hl]
      constructor
      · rw [e1] at r1; simpa using r1
      · rw [e2, e3] at r2; exact r2

/-! ### A node that does not report endpoints -/

/-- The class of every protocol info is known, and no answer is an endpoint report. -/
def Silent (db : DB) : NLabel → Prop
  | .ident _ (.info p) => (db.mandatory p.generic p.specific).isSome = true
  | .ident _ (.report (.multiChannelEndpoints _)) => False
  | _ => True

structure SilentInv (db : DB) (s : NSt) : Prop where
  eps : s.node.endpoints = none
  ok : s.node.statesOk = false
  mark : s.node.identified = false
  inf : ∀ p, s.node.protocolInfo = some p → (db.mandatory p.generic p.specific).isSome = true
  cls : ∀ i, classed (s.ident i) = true → s.node.classes.isSome = true
  low : ∀ i, lvl (s.ident i) ≤ 2

theorem setManufacturer_some {db : DB} {n : Node} (m : ManufacturerSpecific) (h : n.classes.isSome = true) :
    (n.setManufacturer db m).classes.isSome = true := by
  unfold Node.setManufacturer
  simp only
  split
  · exact h
  · obtain ⟨cs, hc⟩ := Option.isSome_iff_exists.1 h
    simp [hc]

theorem silent_step {db : DB} {s s' : NSt} {l : NLabel} (hi : SilentInv db s) (hl : Silent db l)
    (h : nodeStep db s l = some s') : SilentInv db s' := by
  obtain ⟨k1, k2, k3, k4, k5, k6⟩ := hi
  have b := @setManufacturer_some db s.node
  node_step h
  all_goals try have q1 := congrArg classed (by assumption : NSt.ident s _ = _)
  all_goals try conv at q1 => rhs; whnf
  all_goals try have q2 := congrArg lvl (by assumption : NSt.ident s _ = _)
  all_goals try conv at q2 => rhs; whnf
  all_goals try have q3 := k6 ‹Nat›
  all_goals constructor
  all_goals first
    | assumption
    | grind [updN, classed, lvl, Silent, SameCore, → alarmOn_ok, → alarmOff_ok, → applyState_core, setManufacturer_fields]


theorem nothing_sent {db : DB} {s s' : NSt} {l : NLabel} (hw : WakeInv s) (hi : s.nIdent = 0 → nSent s = 0)
    (h : nodeStep db s l = some s') : s'.nIdent = 0 → nSent s' = 0 := by
  intro h0
  have h1 : s.nIdent = 0 := by have := nIdent_mono h; omega
  have e := hi h1
  by_cases hl : l = .identify
  · subst hl
    unfold nodeStep at h
    split at h
    · cases h
    · cases h; simp at h0
  · cases hid : isIdent l with
    | false => rw [(left_other (L := 0) hw hid hl h).2.1, e]
    | true =>
      cases l <;> simp [isIdent] at hid
      rename_i i a
      have : s.ident i = .absent := hw.fresh i (by omega)
      unfold nodeStep at h
      split at h
      · cases h
      · simp only [identStep, this] at h; cases h

theorem not_sent {db : DB} {n : Node} {s : NSt} (h : NReach db n s) (h0 : s.nIdent = 0) : nSent s = 0 := by
  obtain ⟨ls, h⟩ := h
  exact (run_induct (db := db) (P := fun s => WakeInv s ∧ (s.nIdent = 0 → nSent s = 0))
    (fun s l s' hp hs => ⟨wake_step hp.1 hs, nothing_sent hp.1 hp.2 hs⟩) ls _ _
    ⟨wakeInv_start n, fun _ => rfl⟩ h).2 h0

theorem started {db : DB} {n : Node} {s0 s1 : NSt} (h0 : NReach db n s0) (hf : s0.nIdent = 0)
    (hs : nodeStep db s0 .identify = some s1) (M D : Nat) :
    WakeInv s1 ∧ LenInv M D s1 ∧ stepsLeft (M + D) s1 ≤ 10 * (M + D) + 153 ∧
      nSent s1 + reqLeft (M + D) s1 ≤ 3 + (M + D) := by
  have hw := wakeInv h0
  have e := not_sent h0 hf
  have hall : ∀ i, s0.ident i = .absent := fun i => hw.fresh i (by omega)
  have hw1 := wake_step hw hs
  unfold nodeStep at hs
  split at hs
  · cases hs
  injection hs with hs
  subst hs
  have hz : updN s0.ident s0.nIdent .top 0 = .top := by simp [updN, hf]
  have hx : ∀ i, updN s0.ident s0.nIdent .top i = .top ∨ updN s0.ident s0.nIdent .top i = .absent := by
    intro i; simp only [updN]; split
    · exact .inl rfl
    · exact .inr (hall i)
  refine ⟨hw1, ?_, ?_, ?_⟩
  · constructor
    · simp [hf]
    all_goals
      intro i
      simp only
      rcases hx i with h | h <;> rw [h] <;> simp [classed, early, lacks]
  · simp only [stepsLeft, hz, stRank]
    have : missing s0.node ≤ 4 := by
      unfold missing
      repeat' split
      all_goals omega
    have := Nat.mul_le_mul_left (2 * (M + D) + 31) this
    omega
  · simp only [nSent] at e ⊢
    rw [e]
    generalize M + D = L
    simp only [reqLeft, hz]
    repeat' split
    all_goals first | omega | grind

end Verif.Lemmas.NodeM
