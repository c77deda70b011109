import Verif.Props.CtlFair
import Verif.Props.CtlEvents
import Verif.Props.Persist

/-
C104: an alarm ends.
-/

set_option linter.unusedSimpArgs false
set_option linter.unusedVariables false

namespace Verif.Props

open Verif.Go Verif.Model Verif.Spec Verif.Lemmas Verif.Lemmas.NodeM Verif.Lemmas.Ctl

variable {db : DB} {f : Bool} {ns : List Node} {e : Exec (cStep db)}

/-- Whether a report raises an alarm. -/
def raises : Report → Bool
  | .alarm a => a.status == 0xFF
  | _ => false

/-- How many of the reports that were applied to a node raised an alarm. -/
def alarmsRaised (ref : Nat) (h : List CEv) : Nat := (appliedTo ref h).countP raises

/-- What a step of the controller does to a node and to the reports applied to it. -/
theorem applied_step {s s' : CSt} {l : CLabel} {ref : Nat} (hlt : ref < s.nHeap) (h : cStep db s l = some s') :
    s'.heap ref = s.heap ref ∧ appliedTo ref s'.hist = appliedTo ref s.hist ∨
      ∃ l', nodeStep db (s.heap ref) l' = some (s'.heap ref) ∧
        appliedTo ref s'.hist = appliedTo ref s.hist ++ (reportOf l').toList := by
  have put : ∀ r x l' (s1 : CSt), nodeStep db (s.heap r) l' = some x → s1.heap = updN s.heap r x →
      appliedTo ref s1.hist = appliedTo ref s.hist ++ (if ref = r then (reportOf l').toList else []) →
      s1.heap ref = s.heap ref ∧ appliedTo ref s1.hist = appliedTo ref s.hist ∨
      ∃ l', nodeStep db (s.heap ref) l' = some (s1.heap ref) ∧
        appliedTo ref s1.hist = appliedTo ref s.hist ++ (reportOf l').toList := by
    intro r x l' s1 h1 h2 h3
    by_cases er : ref = r
    · subst er
      exact .inr ⟨l', by rw [h2]; simp [updN, h1], by simpa using h3⟩
    · exact .inl ⟨by rw [h2]; simp [updN, er], by simpa [er] using h3⟩
  ctl_step h
  all_goals first
    | exact .inl ⟨rfl, rfl⟩
    | exact .inl ⟨by simp [updN, Nat.ne_of_lt hlt], rfl⟩
    | (refine put _ _ _ _ ‹_› (put_heap ..) ?_
       simp [reportOf]; done)
    | (refine put _ _ _ _ ‹_› (put_heap ..) ?_
       simp [reportOf, appliedTo, eq_comm]
       split <;> simp [*])

/-- C104: an alarm that was raised ends, whatever else is reported in the meantime; at that moment the node shows no
alarm. -/
theorem C104_pulse_ends (hf : FairCtl e) (hg : GoodFile ns) (hr : CReach db f ns (e.st 0)) (n ref j : Nat)
    (hlt : ref < (e.st n).nHeap) (hp : ((e.st n).heap ref).proc j = .pulse) :
    ∃ m, n ≤ m ∧ ((e.st m).crashed ≠ none ∨ ((e.st m).heap ref).proc j = .done ∧
      boolState ((e.st m).heap ref).node "alarm".toList = some false ∧
      floatState ((e.st m).heap ref).node "alarm".toList = some 0) := by
  refine cor_dead (P := fun s => (s.heap ref).proc j = .done ∧ boolState (s.heap ref).node "alarm".toList = some false ∧
    floatState (s.heap ref).node "alarm".toList = some 0) n fun hn => ?_
  refine leads e (hf.proc ref j) (Q := fun s => ref < s.nHeap ∧ (s.heap ref).proc j = .pulse)
    (R := fun s => (s.heap ref).proc j = .done ∧ boolState (s.heap ref).node "alarm".toList = some false ∧
      floatState (s.heap ref).node "alarm".toList = some 0) (n0 := n) ?_ ?_
    (Nat.le_refl _) ⟨hlt, hp⟩
  · intro m hm ⟨q1, q2⟩ l hs
    obtain ⟨g1, g2⟩ := heap_step j q1 hs
    have hc := cinv hg (cexec_reach hr m)
    have hc' := cinv hg (cexec_reach hr (m + 1))
    rcases g2 with ⟨g2, g3⟩ | ⟨l', g2, g3⟩
    · exact .inr ⟨⟨g1, by rw [g2]; exact q2⟩, g3⟩
    · rcases step_alarm (hc.safe ref q1).wake g2 (hc'.safe ref g1).ok with ⟨a, h1, h2, h3, h4⟩ | ⟨j', h1, h2, h3, h4⟩ | ⟨-, -, -, h4, h5⟩
      · refine .inr ⟨⟨g1, ?_⟩, fun hl => ?_⟩
        · rw [h4]; simp only [updN]; split
          · rfl
          · exact q2
        · have := g3.2 hl; rw [h1] at this; cases this
      · by_cases ej : j' = j
        · subst ej
          refine .inl ⟨by rw [h4]; simp [updN], ?_, ?_⟩
          · exact ((alarmOff_ok h3).2.1 kAlarm).trans (by simp)
          · exact ((alarmOff_ok h3).2.2 kAlarm).trans (by simp)
        · refine .inr ⟨⟨g1, by rw [h4]; simp [updN, Ne.symm ej, q2]⟩, fun hl => ?_⟩
          have := g3.2 hl; rw [h1] at this; injection this with this; exact ej this
      · refine .inr ⟨⟨g1, (h4 j).2 q2⟩, fun hl => ?_⟩
        have e1 := g3.2 hl
        subst e1
        have hk := (hc'.safe ref g1).ok
        simp only [nodeStep, (hc.safe ref q1).ok, Option.isSome_none, Bool.false_eq_true, if_false, procStep, q2] at g2
        split at g2
        · split at g2
          · injection g2 with g2; rw [← g2] at hk; cases hk
          · injection g2 with g2
            have := (h4 j).2 q2
            rw [← g2] at this
            simp [updN] at this
        · cases g2
  · intro m hm hq
    obtain ⟨q1, -⟩ := hq m (Nat.le_refl _)
    obtain ⟨m', h1, h2⟩ := node_lock_free ref (hf.proc ref) hg hr hn m q1
    obtain ⟨q1, q2⟩ := hq m' h1
    refine ⟨m', h1, .node ref (.proc j), ?_⟩
    have hs := (cinv hg (cexec_reach hr m')).safe ref q1
    have : ∃ x, nodeStep db ((e.st m').heap ref) (.proc j) = some x := by
      simp only [nodeStep, hs.ok, Option.isSome_none, Bool.false_eq_true, if_false, procStep, q2, h2, if_true]
      split <;> exact ⟨_, rfl⟩
    obtain ⟨x, hx⟩ := this
    unfold cStep
    simp only [hn m', Option.isSome_none, Bool.false_eq_true, if_false, if_pos q1, hx, Option.map_some, true_and]
    exact ⟨_, rfl⟩

/-- A pulse that was not there comes only from a report that raises an alarm; one that is over stays over. -/
theorem pulse_new (hg : GoodFile ns) {s s' : CSt} {l : CLabel} (hr : CReach db f ns s) {ref : Nat} (hlt : ref < s.nHeap)
    (h : cStep db s l = some s') : alarmsRaised ref s.hist ≤ alarmsRaised ref s'.hist ∧
      (alarmsRaised ref s'.hist = alarmsRaised ref s.hist → ∀ j, (s'.heap ref).proc j = .pulse → (s.heap ref).proc j = .pulse) := by
  have hc := cinv hg hr
  have hlt' := (heap_step 0 hlt h).1
  have hc' := cinv hg (creach_step hr h)
  rcases applied_step hlt h with ⟨h1, h2⟩ | ⟨l', h1, h2⟩
  · exact ⟨by unfold alarmsRaised; rw [h2]; exact Nat.le_refl _, fun _ j hj => by rw [h1] at hj; exact hj⟩
  · have e1 : alarmsRaised ref s'.hist = alarmsRaised ref s.hist + (reportOf l').toList.countP raises := by
      unfold alarmsRaised; rw [h2, List.countP_append]
    refine ⟨by omega, fun e2 j hj => ?_⟩
    rcases step_alarm (hc.safe ref hlt).wake h1 (hc'.safe ref hlt').ok with ⟨a, g1, g2, -, -⟩ | ⟨j', -, -, -, g4⟩ | ⟨-, -, -, g4, -⟩
    · subst g1
      have : (reportOf (.report (.alarm a))).toList.countP raises = 1 := by simp [reportOf, raises, g2]
      omega
    · rw [g4] at hj
      simp only [updN] at hj
      split at hj
      · cases hj
      · exact hj
    · exact (g4 j).1 hj

theorem ref_stays (n ref : Nat) (hlt : ref < (e.st n).nHeap) : ∀ m, n ≤ m → ref < (e.st m).nHeap :=
  exec_keep e (Q := fun s => ref < s.nHeap) (fun s l s' h hs => Nat.lt_of_lt_of_le h (nHeap_step hs)) hlt

/-- While a node shows an alarm, the end of the alarm is still to come. -/
theorem alarm_pulse (hg : GoodFile ns) (hfile : ∀ x ∈ ns, boolState x "alarm".toList ≠ some true) {s : CSt}
    (hr : CReach db f ns s) {ref : Nat} (hlt : ref < s.nHeap)
    (ha : boolState (s.heap ref).node "alarm".toList = some true) : ∃ j, (s.heap ref).proc j = .pulse := by
  obtain ⟨n, hn, ls, h1, -⟩ := (bornInv hg hr).born ref hlt
  have h0 : getB n kAlarm ≠ some true := by
    rcases hn with ⟨-, id, rfl⟩ | ⟨m, hm, rfl⟩
    · intro h; cases h
    · exact hfile m (List.mem_of_getElem? hm)
  exact alarmInv h0 ⟨ls, h1⟩ ((cinv hg hr).safe ref hlt).ok ha

theorem cor_dead' {P : Nat → Prop} (n : Nat) (h : (∀ m, (e.st m).crashed = none) → ∃ m, n ≤ m ∧ P m) :
    ∃ m, n ≤ m ∧ ((e.st m).crashed ≠ none ∨ P m) := by
  apply Classical.byContradiction
  intro hno
  have hn : ∀ m, n ≤ m → (e.st m).crashed = none := fun m hm =>
    Classical.byContradiction fun hc => hno ⟨m, hm, .inl hc⟩
  obtain ⟨m, hm, hP⟩ := h (calive_before n hn)
  exact hno ⟨m, hm, .inr hP⟩

/-- C104: when no more alarms are raised, the node in the end shows none for ever. (Missing: nodes that were loaded
from a file that was written during an alarm, see `C104_violated_restart`.) -/
theorem C104_alarm_over_partial (hf : FairCtl e) (hg : GoodFile ns) (hr : CReach db f ns (e.st 0))
    (hfile : ∀ x ∈ ns, boolState x "alarm".toList ≠ some true) (n ref : Nat) (hlt : ref < (e.st n).nHeap)
    (hq : ∀ m, n ≤ m → alarmsRaised ref (e.st m).hist = alarmsRaised ref (e.st n).hist) :
    ∃ m, n ≤ m ∧ ((e.st m).crashed ≠ none ∨
      ∀ m', m ≤ m' → boolState ((e.st m').heap ref).node "alarm".toList ≠ some true) := by
  have hl := ref_stays n ref hlt
  have keep : ∀ j a, n ≤ a → ((e.st a).heap ref).proc j ≠ .pulse → ∀ b, a ≤ b → ((e.st b).heap ref).proc j ≠ .pulse := by
    intro j a ha h b hb
    induction hb with
    | refl => exact h
    | step hb ih =>
      next b =>
      have hab : a ≤ b := hb
      have hnx := e.next b
      split at hnx
      · intro hp
        refine ih ((pulse_new hg (cexec_reach hr b) (hl b (by omega)) hnx).2 ?_ j hp)
        rw [hq (b + 1) (by omega), hq b (by omega)]
      · rw [hnx]; exact ih
  refine cor_dead' n fun hn => ?_
  have all : ∀ k, ∃ m, n ≤ m ∧ ∀ j, j < k → ((e.st m).heap ref).proc j ≠ .pulse := by
    intro k
    induction k with
    | zero => exact ⟨n, Nat.le_refl _, fun j hj => by omega⟩
    | succ k ih =>
      obtain ⟨m, h1, h2⟩ := ih
      by_cases hp : ((e.st m).heap ref).proc k = .pulse
      · obtain ⟨m', h3, h4 | ⟨h4, -⟩⟩ := C104_pulse_ends hf hg hr m ref k (hl m h1) hp
        · exact absurd (hn m') h4
        · refine ⟨m', by omega, fun j hj => ?_⟩
          by_cases ej : j = k
          · subst ej; rw [h4]; exact fun h => by cases h
          · exact keep j m h1 (h2 j (by omega)) m' h3
      · refine ⟨m, h1, fun j hj => ?_⟩
        by_cases ej : j = k
        · subst ej; exact hp
        · exact h2 j (by omega)
  obtain ⟨m, h1, h2⟩ := all (((e.st n).heap ref).nProc)
  refine ⟨m, h1, fun m' hm' ha => ?_⟩
  obtain ⟨j, hj⟩ := alarm_pulse hg hfile (cexec_reach hr m') (hl m' (by omega)) ha
  by_cases hjn : j < ((e.st n).heap ref).nProc
  · exact keep j m h1 (h2 j hjn) m' hm' hj
  · refine keep j n (Nat.le_refl _) ?_ m' (by omega) hj
    rw [(((cinv hg (cexec_reach hr n)).safe ref hlt).wake).freshP j (by omega)]
    exact fun h => by cases h

/-! ### Examples -/

/-- An alarm of type 7 (burglar). -/
def repAlarm : Report := .alarm { type := 7, level := 0, sensorSourceID := 0, sensorType := 0, event := 0, status := 0xFF }

/-- Fair executions exist in which a node raises an alarm: it shows it at moment 15, and no other is raised. -/
example : ∃ e : Exec (cStep demoDB), FairCtl e ∧ CReach demoDB true [] (e.st 0) ∧ 0 < (e.st 15).nHeap ∧
    ((e.st 15).heap 0).proc 0 = .pulse ∧ boolState ((e.st 15).heap 0).node "alarm".toList = some true ∧
    floatState ((e.st 15).heap 0).node "alarm".toList = some 7 ∧
    ∀ m, 15 ≤ m → alarmsRaised 0 (e.st m).hist = alarmsRaised 0 (e.st 15).hist := by
  let ls : List CLabel := discOne ++ deliverOne 0 repAlarm ++ [.node 0 (.proc 0)]
  obtain ⟨e, h1, h2, h3, h4⟩ := cfair_of_run (fl := true) noFileGood (ls := ls)
    (p := fun s => alarmsRaised 0 s.hist == 1) (fun _ _ => rfl) (by decide +kernel)
  have v : ∀ n (p : CSt → Bool), n ≤ ls.length → (cRun demoDB (start true []) (ls.take n)).map p = some true → p (e.st n) = true := by
    intro n p hn hp
    cases hr : cRun demoDB (start true []) (ls.take n) with
    | none => rw [hr] at hp; cases hp
    | some t => rw [hr] at hp; rw [h3 n t hn hr]; simpa using hp
  refine ⟨e, h1, h2, ?_, ?_, ?_, ?_, fun m hm => ?_⟩
  · simpa using v 15 (fun s => decide (0 < s.nHeap)) (by decide) (by decide +kernel)
  · simpa using v 15 (fun s => decide ((s.heap 0).proc 0 = .pulse)) (by decide) (by decide +kernel)
  · simpa using v 15 (fun s => decide (boolState (s.heap 0).node "alarm".toList = some true)) (by decide) (by decide +kernel)
  · simpa using v 15 (fun s => decide (floatState (s.heap 0).node "alarm".toList = some 7)) (by decide) (by decide +kernel)
  · have e1 : alarmsRaised 0 (e.st 15).hist = 1 := by
      simpa using v 15 (fun s => decide (alarmsRaised 0 s.hist = 1)) (by decide) (by decide +kernel)
    rw [e1]
    by_cases hm' : m = 15
    · subst hm'; exact e1
    · simpa using (h4 m (by have : ls.length = 16 := by decide
                            omega)).2

/-- Node 2 as it is read from a file that was written during an alarm. -/
def alarmedNode : Node :=
  { newNode 2 with hasConn := true, stateBool := some [(cs! "on", true), (cs! "alarm", true)]
                   stateFloat := some [(cs! "alarm", 7), (cs! "alarmLastType", 7)] }

/-- C104 is false across a restart: a save that was caused by another change reads the node during an alarm, and the
program that loads that file shows the alarm for ever, since nobody is left to end it. -/
theorem C104_violated_restart :
    (∃ s, CReach demoDB true [] s ∧ s.crashed = none ∧ s.list.get 2 = some 0 ∧ s.saver.reads = some 0 ∧
      Restored (s.heap 0).node alarmedNode) ∧
    ∃ e : Exec (cStep demoDB), FairCtl e ∧ CReach demoDB true [alarmedNode] (e.st 0) ∧
      ∀ m, (e.st m).crashed = none ∧ (e.st m).list.get 2 = some 0 ∧ alarmsRaised 0 (e.st m).hist = 0 ∧
        boolState ((e.st m).heap 0).node "alarm".toList = some true := by
  have hg : GoodFile [alarmedNode] :=
    ⟨by intro n hn; simp at hn; subst hn; exact ⟨rfl, rfl, rfl, rfl, rfl⟩, by simp⟩
  refine ⟨?_, ?_⟩
  · have h : ((cRun demoDB (start true []) (discOne ++ deliverOne 0 repOn ++ [.startSaver, .saver .trigger, .tick 10000, .saver .timer, .saver .differ] ++
        deliverOne 1 repAlarm ++ [.saver .go, .saver .go])).map fun s =>
        decide (s.crashed.isNone = true ∧ s.list.get 2 = some 0 ∧ s.saver.reads = some 0 ∧
          (s.heap 0).node = alarmedNode)) = some true := by
      decide +kernel
    rw [Option.map_eq_some_iff] at h
    obtain ⟨s, h1, h2⟩ := h
    obtain ⟨a, b, c, e1⟩ := of_decide_eq_true h2
    refine ⟨s, ⟨_, h1⟩, by simpa using a, b, c, ?_⟩
    rw [e1]
    exact ⟨rfl, rfl, rfl, rfl, rfl, rfl, rfl, trivial, fun _ => rfl, fun _ => rfl, rfl, rfl, rfl, rfl⟩
  · obtain ⟨e, h1, h2, -, h4⟩ := cfair_of_run (fl := true) hg (ls := [])
      (p := fun s => decide (s.list.get 2 = some 0 ∧ alarmsRaised 0 s.hist = 0 ∧
        boolState (s.heap 0).node "alarm".toList = some true)) (fun _ _ => rfl) (by decide +kernel)
    refine ⟨e, h1, h2, fun m => ?_⟩
    obtain ⟨g1, g2⟩ := h4 m (by simp)
    exact ⟨g1, by simpa using g2⟩

end Verif.Props
