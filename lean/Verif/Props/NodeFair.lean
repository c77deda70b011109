import Verif.Lemmas.NodeFair
import Verif.Props.Node

/-
C98: in fair executions an identification comes to its end, however many requests are lost, provided the node answers
in the end and no wake-up is lost.
-/

set_option maxHeartbeats 4000000

namespace Verif.Props

open Verif.Go Verif.Model Verif.Spec Verif.Lemmas Verif.Lemmas.NodeM

variable {db : DB} {e : Exec (nodeStep db)} {n : Node} {k : Nat}

theorem node_done_stays (hn : FreshOk n) (h0 : e.st 0 = NSt.start n) {m : Nat}
    (h : (e.st m).ident 0 = .done) : ∀ m', m ≤ m' → (e.st m').node.identified = true := by
  have hid : ∀ m, IdInv (e.st m) := fun m =>
    exec_keep e (Q := IdInv) (fun s l s' h1 h2 => id_step h1 h2) (n := 0) (by rw [h0]; exact idInv_start hn) m (Nat.zero_le _)
  have key : ∀ m', m ≤ m' → (e.st m').ident 0 = .done ∧ 1 ≤ (e.st m').nIdent := by
    refine exec_keep e (Q := fun s => s.ident 0 = .done ∧ 1 ≤ s.nIdent) (fun s l s' h1 h2 => ?_) ⟨h, ?_⟩
    · obtain ⟨p1, p2⟩ := h1
      node_step h2
      all_goals first
        | exact ⟨p1, p2⟩
        | grind [updN]
    · have hw : WakeInv (e.st m) :=
        exec_keep e (Q := WakeInv) (fun s l s' h1 h2 => wake_step h1 h2) (n := 0) (by rw [h0]; exact wakeInv_start n) m (Nat.zero_le _)
      apply Classical.byContradiction
      intro hlt
      rw [hw.fresh 0 (by omega)] at h
      cases h
  intro m' hm
  exact (hid m').done 0 (key m' hm).1

/-- C98, a node that wakes up again and again: the identification ends with the node identified for good, or it waits
on a nil channel. Missing: that it does not wait on nil (see below). -/
theorem C98_identified_partial {M D : Nat} (hb : DBBound db M D) (hn : FreshOk n) (hu : Usable n)
    (h0 : e.st 0 = NSt.start n) (ho : IdentifiedOnce e k) (hf : FairNode e) (hl : FairLoss e) (hw : WakesUp e) :
    ∃ m, k < m ∧ ((∀ m', m ≤ m' → (e.st m').node.identified = true) ∨ ∃ p, (e.st m).ident 0 = .awWait p none) := by
  obtain ⟨m, hm, h | h⟩ := ident_ends hb hn hu h0 ho hf hl (.inl hw)
  · exact ⟨m, hm, .inl (node_done_stays hn h0 h)⟩
  · exact ⟨m, hm, .inr h⟩

/-- C98 for a sleeping node whose wake-ups do not come between the creation of the channel and its use. -/
theorem C98_identified_sleeping {M D : Nat} (hb : DBBound db M D) (hn : FreshOk n) (hu : Usable n)
    (h0 : e.st 0 = NSt.start n) (ho : IdentifiedOnce e k) (hf : FairNode e) (hl : FairLoss e) (hw : WakesUp e)
    (hr : ∀ m j p, e.lab m = some (.proc j) → (e.st m).proc j = .wakeNil → (e.st m).ident 0 ≠ .awRet p) :
    ∃ m, k < m ∧ ∀ m', m ≤ m' → (e.st m').node.identified = true := by
  have hall := exec_inv hb hn hu h0 ho
  have key : ∀ m, (∀ p, (e.st m).ident 0 = .awRet p → (e.st m).awake ≠ none) ∧ ∀ p, (e.st m).ident 0 ≠ .awWait p none := by
    intro m
    induction m with
    | zero => rw [h0]; constructor <;> simp [NSt.start]
    | succ m ih =>
      have hx := e.next m
      split at hx
      · next l hlab =>
        exact norace_step (hall m).2.wake (hall m).2.len.one ih (fun j p h h' => hr m j p (by rw [hlab, h]) h') hx
      · rw [hx]; exact ih
  obtain ⟨m, hm, h | ⟨p, h⟩⟩ := ident_ends hb hn hu h0 ho hf hl (.inl hw)
  · exact ⟨m, hm, node_done_stays hn h0 h⟩
  · exact absurd h ((key m).2 p)

/-- C98 for a listening node: nothing is assumed of wake-ups. -/
theorem C98_identified_listening {M D : Nat} (hb : DBBound db M D) (hn : FreshOk n) (hu : Usable n)
    (h0 : e.st 0 = NSt.start n) (ho : IdentifiedOnce e k) (hf : FairNode e) (hl : FairLoss e)
    (ha : n.protocolInfo.isSome = true → n.isAwake = true)
    (hp : ∀ m i p, e.lab m = some (.ident i (.info p)) → p.listening = true) :
    ∃ m, k < m ∧ ∀ m', m ≤ m' → (e.st m').node.identified = true := by
  have hall := exec_inv hb hn hu h0 ho
  have key : ∀ m, ((e.st m).node.protocolInfo.isSome = true → (e.st m).node.isAwake = true) ∧
      ∀ i, beyondTest ((e.st m).ident i) = false := by
    intro m
    induction m with
    | zero => rw [h0]; exact ⟨ha, fun i => rfl⟩
    | succ m ih =>
      have hx := e.next m
      split at hx
      · next l hlab =>
        exact listen_step (hall m).2.idi ih (fun i p h => hp m i p (by rw [hlab, h])) hx
      · rw [hx]; exact ih
  have hne : ∀ m p c, (e.st m).ident 0 ≠ .awWait p c := by
    intro m p c h
    have := (key m).2 0
    rw [h] at this
    cases this
  obtain ⟨m, hm, h | ⟨p, h⟩⟩ := ident_ends hb hn hu h0 ho hf hl (.inr hne)
  · exact ⟨m, hm, node_done_stays hn h0 h⟩
  · exact absurd h (hne m p none)

/-! ### Executions -/

theorem nodeRun_steps (s : NSt) (ls : List NLabel) : nodeRun db s ls = runSteps (nodeStep db) s ls := by
  induction ls generalizing s with
  | nil => rfl
  | cons l ls ih =>
    simp only [nodeRun, runSteps]
    cases nodeStep db s l with
    | none => rfl
    | some s => exact ih s

/-- At the end only wake-ups of a node that nobody waits for arrive. -/
def nodeRestB (s : NSt) : Bool :=
  s.crashed.isNone && s.lock.isNone && s.awake.isNone && decide (s.nIdent = 1) &&
  (decide (s.ident 0 = .done) || decide (s.ident 0 = .awWait .manufacturer none)) &&
  (List.range s.nProc).all fun j => decide (s.proc j = .done)

/-- A run that begins with the call of `Identify` and contains no other, continued by wake-ups. -/
theorem nfair_of_run {n : Node} {ls : List NLabel} {p : NSt → Bool}
    (h : (nodeRun demoDB (NSt.start n) (.identify :: ls)).map (fun s => nodeRestB s && p s) = some true)
    (hni : .identify ∉ ls) :
    ∃ e : Exec (nodeStep demoDB), FairNode e ∧ e.st 0 = NSt.start n ∧ IdentifiedOnce e 0 ∧ WakesUp e ∧
      (∀ m, m < ls.length + 1 → e.lab m = (.identify :: ls)[m]?) ∧
      (∀ m, ls.length + 1 ≤ m → e.lab m = some (.report .wakeUp) ∧ p (e.st m) = true) ∧
      (∀ m t, nodeRun demoDB (NSt.start n) ((.identify :: ls).take m) = some t → e.st m = t) := by
  cases hr : nodeRun demoDB (NSt.start n) (.identify :: ls) with
  | none => rw [hr] at h; cases h
  | some s =>
    rw [hr] at h
    simp only [Option.map_some, Option.some.injEq, Bool.and_eq_true, nodeRestB, Option.isNone_iff_eq_none,
      decide_eq_true_eq, Bool.or_eq_true, List.all_eq_true, List.mem_range] at h
    obtain ⟨⟨⟨⟨⟨⟨h1, h2⟩, h3⟩, h4⟩, h5⟩, h6⟩, h7⟩ := h
    have hw : WakeInv s := wakeInv ⟨_, hr⟩
    have hself : ∀ l, some (NLabel.report .wakeUp) = some l → nodeStep demoDB s l = some s := by
      rintro l ⟨⟩
      unfold nodeStep
      simp [h1, h2, reportStep, h3]
    have hr' := hr
    rw [nodeRun_steps] at hr'
    refine ⟨execFin (nodeStep demoDB) _ (.identify :: ls) s hr' (some (.report .wakeUp)) hself, ⟨?_, fun j => ?_⟩, rfl, ?_, ?_, ?_, ?_, ?_⟩
    · refine execFin_fairly hr' hself fun l => ?_
      rintro ⟨a, rfl⟩
      unfold nodeStep
      simp only [h1, Option.isSome_none, Bool.false_eq_true, if_false, identStep]
      rcases h5 with h | h <;> simp [h]
    · refine execFin_fairly hr' hself fun l => ?_
      rintro rfl
      unfold nodeStep
      simp only [h1, Option.isSome_none, Bool.false_eq_true, if_false, procStep]
      by_cases hj : j < s.nProc
      · simp [h6 j hj]
      · simp [hw.freshP j (by omega)]
    · intro m
      simp only [execFin]
      split
      · cases m with
        | zero => simp
        | succ m =>
          simp only [List.getElem?_cons_succ, Nat.succ_ne_zero, iff_false]
          intro h
          exact hni (List.mem_of_getElem? h)
      · constructor
        · intro h; cases h
        · rintro rfl; next h => simp at h
    · intro m
      refine ⟨m + ls.length + 1, by omega, ?_⟩
      simp only [execFin]
      rw [if_neg (by simp +arith)]
    · intro m hm
      simp only [execFin]
      rw [if_pos (by simpa using hm)]
    · intro m hm
      refine ⟨?_, ?_⟩
      · simp only [execFin]
        rw [if_neg (by simp; omega)]
      · rw [execFin_end hr' hself (by simpa using hm)]
        exact h7
    · intro m t ht
      simp only [execFin]
      rw [← nodeRun_steps, ht]
      rfl

/-- After the last request nothing is asked for. -/
theorem fairloss_of_end {e : Exec (nodeStep db)} {N : Nat} (h : ∀ m, N ≤ m → e.lab m = some (.report .wakeUp)) :
    FairLoss e := by
  intro a hi
  obtain ⟨m, ans, h1, h2, -⟩ := hi N
  rw [h m h1] at h2
  cases h2

/-- The node wakes up while processing goroutine `j` is the next. -/
def waitFor (j : Nat) : List NLabel := [go, go, go, go, .report .wakeUp, .proc j, .proc j, go]

/-- A sleeping switch; the first request for the protocol info and the first for the manufacturer are lost. -/
def sleepIdent : List NLabel :=
  [go, go, go, go, .ident 0 (.info (demoInfo false)), go, go] ++ waitFor 0 ++ [go, go, go, go, go, go] ++ waitFor 1 ++
  [go, .ident 0 (.report (.manufacturerSpecific demoMan)), go] ++ waitFor 2 ++
  [go, .ident 0 (.report (.multiChannelEndpoints ⟨false, false, 3⟩)), go, go, go, go, go, go] ++ waitFor 3 ++
  List.replicate 10 go

/-- No wake-up ends at a given moment of a run while the channel is being returned. -/
def noRaceAt (ls : List NLabel) (m : Nat) : Bool :=
  match nodeRun demoDB (NSt.start (readyNode 3)) (ls.take m), ls[m]? with
  | some s, some (.proc j) => !(decide (s.proc j = .wakeNil) && match s.ident 0 with | .awRet _ => true | _ => false)
  | some _, _ => true
  | none, _ => false

/-- The hypotheses for a sleeping node hold for an execution in which two requests are lost. -/
example : ∃ e : Exec (nodeStep demoDB), FairNode e ∧ e.st 0 = NSt.start (readyNode 3) ∧ IdentifiedOnce e 0 ∧ FairLoss e ∧
    WakesUp e ∧ (∀ m j p, e.lab m = some (.proc j) → (e.st m).proc j = .wakeNil → (e.st m).ident 0 ≠ .awRet p) ∧
    (e.st 3).ident 0 = .sleep ∧ (e.st 12).ident 0 = .awWait .manufacturer (some 0) := by
  obtain ⟨e, h1, h2, h3, h4, h5, h6, h7⟩ := nfair_of_run (n := readyNode 3) (ls := sleepIdent) (p := fun _ => true)
    (by decide +kernel) (by decide +kernel)
  have hlen : sleepIdent.length = 66 := by decide +kernel
  have hall : ∀ m, m < 67 → noRaceAt (.identify :: sleepIdent) m = true := by decide +kernel
  have v : ∀ m (a : IdentAt), (nodeRun demoDB (NSt.start (readyNode 3)) ((.identify :: sleepIdent).take m)).map
      (fun s => decide (s.ident 0 = a)) = some true → (e.st m).ident 0 = a := by
    intro m a hp
    cases hr : nodeRun demoDB (NSt.start (readyNode 3)) ((.identify :: sleepIdent).take m) with
    | none => rw [hr] at hp; cases hp
    | some t => rw [hr] at hp; rw [h7 m t hr]; simpa using hp
  refine ⟨e, h1, h2, h3, fairloss_of_end fun m hm => (h6 m hm).1, h4, fun m j p hl hp hi => ?_, v 3 _ (by decide +kernel), v 12 _ (by decide +kernel)⟩
  by_cases hm : m < 67
  · have g := hall m hm
    unfold noRaceAt at g
    rw [h5 m (by omega)] at hl
    rw [hl] at g
    cases hr : nodeRun demoDB (NSt.start (readyNode 3)) ((.identify :: sleepIdent).take m) with
    | none => rw [hr] at g; cases g
    | some t =>
      rw [h7 m t hr] at hp hi
      rw [hr] at g
      simp [hp, hi] at g
  · rw [(h6 m (by omega)).1] at hl
    cases hl

/-- The hypotheses for a listening node hold for an execution in which the first request is lost. -/
example : ∃ e : Exec (nodeStep demoDB), FairNode e ∧ e.st 0 = NSt.start (readyNode 3) ∧ IdentifiedOnce e 0 ∧ FairLoss e ∧
    (∀ m i p, e.lab m = some (.ident i (.info p)) → p.listening = true) ∧ (e.st 3).ident 0 = .sleep := by
  let ls : List NLabel := [go, go, go] ++ (demoIdent 3).dropLast.tail
  obtain ⟨e, h1, h2, h3, h4, h5, h6, h7⟩ := nfair_of_run (n := readyNode 3) (ls := ls) (p := fun _ => true)
    (by decide +kernel) (by decide +kernel)
  refine ⟨e, h1, h2, h3, fairloss_of_end fun m hm => (h6 m hm).1, fun m i p hl => ?_, ?_⟩
  · by_cases hm : m < ls.length + 1
    · rw [h5 m hm] at hl
      have hall : (NLabel.identify :: ls).all (fun l => match l with | .ident _ (.info p) => p.listening | _ => true) = true := by
        decide +kernel
      rw [List.all_eq_true] at hall
      exact hall _ (List.mem_of_getElem? hl)
    · rw [(h6 m (by omega)).1] at hl
      cases hl
  · cases hr : nodeRun demoDB (NSt.start (readyNode 3)) ((.identify :: ls).take 3) with
    | none =>
      have : (nodeRun demoDB (NSt.start (readyNode 3)) ((.identify :: ls).take 3)).isSome = true := by decide +kernel
      rw [hr] at this; cases this
    | some t =>
      have : (nodeRun demoDB (NSt.start (readyNode 3)) ((.identify :: ls).take 3)).map (fun s => decide (s.ident 0 = .sleep)) = some true := by
        decide +kernel
      rw [hr] at this
      rw [h7 3 t hr]
      simpa using this

/-- C98 is false for a sleeping node in general: in a fair execution in which the node wakes up again and again and
answers everything, it is never identified. -/
theorem C98_violated_lost_wakeup : ∃ e : Exec (nodeStep demoDB), FairNode e ∧ e.st 0 = NSt.start (readyNode 3) ∧
    IdentifiedOnce e 0 ∧ FairLoss e ∧ WakesUp e ∧
    ∃ N, ∀ m, N ≤ m → (e.st m).node.identified = false ∧ (e.st m).crashed = none := by
  obtain ⟨e, h1, h2, h3, h4, -, h6, -⟩ := nfair_of_run (n := readyNode 3)
    (ls := [go, .ident 0 (.info (demoInfo false)), go, go, go, go, go, .report .wakeUp, .proc 0, .proc 0, go])
    (p := fun s => decide (s.node.identified = false ∧ s.crashed = none)) (by decide +kernel) (by decide +kernel)
  exact ⟨e, h1, h2, h3, fairloss_of_end fun m hm => (h6 m hm).1, h4, _, fun m hm => by simpa using (h6 m hm).2⟩

end Verif.Props
