import Verif.Props.CtlFair

/-
C97, C47: an infinite fair execution in which an update comes every nine seconds, so that nothing is ever saved.
-/

set_option linter.unusedSimpArgs false
set_option linter.unusedVariables false
set_option maxHeartbeats 1000000

namespace Verif.Props

open Verif.Go Verif.Model Verif.Spec Verif.Lemmas Verif.Lemmas.NodeM Verif.Lemmas.Ctl

/-! ### Nine seconds, step by step -/

/-- The node after it said that it is on. -/
def onNode (x : NSt) : NSt := { x.push with node := { x.node with stateBool := some ((x.node.stateBool.getD []).set kOn true) } }

/-- Report `i` has arrived. -/
def mid1 (s : CSt) : CSt :=
  { s with nDeliv := s.nDeliv + 1, deliv := updN s.deliv s.nDeliv (.call 2 repOn), hist := .arrived s.nDeliv 2 repOn :: s.hist }

/-- It is about to be looked up. -/
def mid2 (i : Nat) (s : CSt) : CSt := { mid1 s with deliv := updN (mid1 s).deliv i (.look 2 repOn) }

/-- Its node has been found. -/
def mid3 (i : Nat) (s : CSt) : CSt := { mid2 i s with deliv := updN (mid2 i s).deliv i (.process 0 repOn) }

/-- It is being applied. -/
def mid34 (i : Nat) (s : CSt) : CSt := { mid3 i s with hist := .applied i 0 repOn :: (mid3 i s).hist }

/-- It has been applied, and the saver has a trigger. -/
def mid4 (i : Nat) (s : CSt) : CSt :=
  { (mid34 i s).put 0 (onNode (s.heap 0)) with deliv := updN (mid3 i s).deliv i .done }

/-- The saver has received the trigger. -/
def mid5 (i : Nat) (s : CSt) : CSt :=
  { mid4 i s with nTrig := (mid4 i s).nTrig - 1, saver := .window (mid4 i s).now, hist := .trigger (mid4 i s).now :: (mid4 i s).hist }

/-- Nine seconds later. -/
def mid6 (i : Nat) (s : CSt) : CSt := { mid5 i s with now := (mid5 i s).now + 9000 }

/-- The states of the round that begins with `s`, in which report `i` comes. -/
def mid (i : Nat) (s : CSt) : Nat → CSt
  | 0 => s
  | 1 => mid1 s
  | 2 => mid2 i s
  | 3 => mid3 i s
  | 4 => mid4 i s
  | 5 => mid5 i s
  | _ => mid6 i s

def midLab (i : Nat) : Nat → CLabel
  | 0 => .arrive 2 repOn
  | 1 | 2 | 3 => .deliver i
  | 4 => .saver .trigger
  | _ => .tick 9000

/-- The state when round `i` begins. -/
structure Round (i : Nat) (s : CSt) : Prop where
  ok : s.crashed = none
  disc : s.disc = .done
  list : s.list.get 2 = some 0
  n : s.nDeliv = i
  deliv : ∀ k, s.deliv k = .absent ∨ s.deliv k = .done
  heap : s.nHeap = 1
  proc : ∀ j, (s.heap 0).proc j = .absent
  trig : s.nTrig = 0
  saver : s.saver = .idle ∨ ∃ t, s.saver = .window t
  updates : Spec.updates s.hist = i
  saves : Spec.saves s.hist = 0
  now : s.now = 9000 * i
  node : (s.heap 0).crashed = none ∧ (s.heap 0).lock = none ∧ (s.heap 0).node.stateBool.isSome = true ∧
    (s.heap 0).node.hasConn = true

variable {i : Nat} {s : CSt}

theorem put_on (h : Round i s) (t : CSt) (ht : t.heap 0 = s.heap 0) : t.put 0 (onNode (s.heap 0)) =
    ({ t with heap := updN t.heap 0 (onNode (s.heap 0)), crashed := (onNode (s.heap 0)).crashed }).push (.updated (s.heap 0).node.id) := by
  unfold CSt.put
  simp only
  rw [if_pos]
  · rfl
  · refine ⟨?_, h.node.2.2.2⟩
    rw [ht]
    simp [nodePushes, onNode, NSt.push]

theorem mid_fields (h : Round i s) (j : Nat) (hj : j ≤ 6) :
    (mid i s j).crashed = none ∧ (mid i s j).disc = .done ∧ (mid i s j).list = s.list ∧ (mid i s j).nHeap = 1 ∧
    (mid i s j).nDeliv = (if j = 0 then i else i + 1) ∧
    (∀ k, k ≠ i → (mid i s j).deliv k = .absent ∨ (mid i s j).deliv k = .done) ∧
    (mid i s j).deliv i = (match j with | 0 => s.deliv i | 1 => .call 2 repOn | 2 => .look 2 repOn | 3 => .process 0 repOn | _ => .done) ∧
    (mid i s j).heap 0 = (if j ≤ 3 then s.heap 0 else onNode (s.heap 0)) ∧
    (mid i s j).nTrig = (if j = 4 then 1 else 0) ∧
    ((mid i s j).saver = .idle ∨ ∃ t, (mid i s j).saver = .window t) ∧
    Spec.updates (mid i s j).hist = (if j ≤ 3 then i else i + 1) ∧ Spec.saves (mid i s j).hist = 0 ∧
    (mid i s j).now = (if j ≤ 5 then 9000 * i else 9000 * (i + 1)) := by
  obtain ⟨h1, h2, h3, h4, h5, h6, h7, h8, h9, h10, h11, h12, h13⟩ := h
  have hput := put_on ⟨h1, h2, h3, h4, h5, h6, h7, h8, h9, h10, h11, h12, h13⟩ (mid34 i s) rfl
  have hc : (onNode (s.heap 0)).crashed = none := h13.1
  rcases (by omega : j = 0 ∨ j = 1 ∨ j = 2 ∨ j = 3 ∨ j = 4 ∨ j = 5 ∨ j = 6) with rfl | rfl | rfl | rfl | rfl | rfl | rfl
  all_goals simp only [mid, mid6, mid5, mid4]
  all_goals try rw [hput]
  all_goals try simp only [mid34, mid3, mid2, mid1, CSt.push]
  all_goals clear hput
  all_goals refine ⟨?_, ?_, ?_, ?_, ?_, ?_, ?_, ?_, ?_, ?_, ?_, ?_, ?_⟩
  all_goals first
    | assumption
    | rfl
    | (simp [h4, h6, h8, h10, h11, h12, updN, Spec.updates, Spec.saves]; done)
    | (intro k hk; have := h5 k; simpa [updN, hk, h4] using this)
    | exact .inr ⟨_, rfl⟩
    | (simp [h12]; omega)

theorem mid_round (h : Round i s) : Round (i + 1) (mid i s 6) := by
  obtain ⟨g1, g2, g3, g4, g5, g6, g7, g8, g9, g10, g11, g12, g13⟩ := mid_fields h 6 (by omega)
  refine ⟨g1, g2, by rw [g3]; exact h.list, g5, fun k => ?_, g4, fun j => ?_, g9, g10, g11, g12, g13, ?_⟩
  · by_cases hk : k = i
    · subst hk; exact .inr g7
    · exact g6 k hk
  · rw [g8]; exact h.proc j
  · rw [g8]
    exact ⟨h.node.1, h.node.2.1, rfl, h.node.2.2.2⟩

theorem on_step (h : Round i s) : nodeStep demoDB (s.heap 0) (.report repOn) = some (onNode (s.heap 0)) := by
  obtain ⟨-, -, -, -, -, -, -, -, -, -, -, -, a, b, c, -⟩ := h
  generalize s.heap 0 = x at a b c
  obtain ⟨m, hm⟩ := Option.isSome_iff_exists.1 c
  unfold nodeStep
  simp only [a, Option.isSome_none, Bool.false_eq_true, if_false, b, if_true]
  unfold reportStep repOn Node.applyState Node.setBool onNode
  simp only [mapPut, hm]
  rfl

theorem mid_step (h : Round i s) (j : Nat) (hj : j < 6) : cStep demoDB (mid i s j) (midLab i j) = some (mid i s (j + 1)) := by
  obtain ⟨g1, g2, g3, g4, g5, g6, g7, g8, g9, g10, g11, g12, g13⟩ := mid_fields h j (by omega)
  unfold cStep
  rw [show (mid i s j).crashed.isSome = false by rw [g1]; rfl]
  simp only [Bool.false_eq_true, if_false]
  rcases (by omega : j = 0 ∨ j = 1 ∨ j = 2 ∨ j = 3 ∨ j = 4 ∨ j = 5) with rfl | rfl | rfl | rfl | rfl | rfl
  · rfl
  · simp only [midLab, deliverStep, g7]
    rw [show (mid i s 1).disc.locks = false by rw [g2]; rfl]
    rfl
  · simp only [midLab, deliverStep, g7]
    rw [if_neg (by rw [g2]; simp [DiscAt.writes])]
    rw [show (mid i s 2).list.get ((2 : UInt8).toNat : Int) = some 0 by rw [g3]; exact h.list]
    rfl
  · have hn : nodeStep demoDB ((mid i s 3).heap 0) (.report repOn) = some (onNode (s.heap 0)) := by
      rw [g8, if_pos (by omega)]
      exact on_step h
    simp only [midLab, deliverStep, g7, hn]
    rfl
  · simp only [midLab, saverStep]
    have hlt : 0 < (mid i s 4).nTrig := by rw [g9]; decide
    rcases g10 with g | ⟨t, g⟩ <;> rw [g] <;> simp only [if_pos hlt] <;> rfl
  · rfl

/-! ### For ever -/

def round0 : CSt := (cRun demoDB (start true []) (discOne ++ [.startSaver])).getD (start true [])

theorem round0_ok : Round 0 round0 ∧ CReach demoDB true [] round0 := by
  have h : ((cRun demoDB (start true []) (discOne ++ [.startSaver])).map fun s =>
      decide (s.crashed.isNone = true ∧ s.disc = .done ∧ s.list.get 2 = some 0 ∧ s.nDeliv = 0 ∧ s.nHeap = 1 ∧ (s.heap 0).nProc = 0 ∧ s.nTrig = 0 ∧
        s.saver = .idle ∧ Spec.updates s.hist = 0 ∧ Spec.saves s.hist = 0 ∧ s.now = 0 ∧
        (s.heap 0).crashed.isNone = true ∧ (s.heap 0).lock = none ∧ (s.heap 0).node.stateBool.isSome = true ∧
        (s.heap 0).node.hasConn = true)) = some true := by decide +kernel
  rw [Option.map_eq_some_iff] at h
  obtain ⟨s, h1, h2⟩ := h
  have hs : round0 = s := by unfold round0; rw [h1]; rfl
  obtain ⟨a, b, c, e, e1, e2, g, i, j, k, l, m, o, p, q⟩ := of_decide_eq_true h2
  rw [hs]
  have hr : CReach demoDB true [] s := ⟨_, h1⟩
  have hc := cinv noFileGood hr
  exact ⟨⟨by simpa using a, b, c, e, fun k => .inl (hc.fresh k (by omega)), e1, fun j => (hc.safe 0 (by omega)).wake.freshP j (by omega), g, .inl i, j, k, l, by simpa using m, o, p, q⟩, hr⟩

def rounds : Nat → CSt
  | 0 => round0
  | i + 1 => mid i (rounds i) 6

theorem rounds_ok (i : Nat) : Round i (rounds i) := by
  induction i with
  | zero => exact round0_ok.1
  | succ i ih => exact mid_round ih

/-- The execution: round after round. -/
def postponed : Exec (cStep demoDB) where
  st n := mid (n / 6) (rounds (n / 6)) (n % 6)
  lab n := some (midLab (n / 6) (n % 6))
  next n := by
    have h := mid_step (rounds_ok (n / 6)) (n % 6) (Nat.mod_lt _ (by decide))
    show cStep demoDB _ (midLab (n / 6) (n % 6)) = some _
    rw [h]
    by_cases h5 : n % 6 = 5
    · rw [h5, show (n + 1) / 6 = n / 6 + 1 by omega, show (n + 1) % 6 = 0 by omega]
      rfl
    · rw [show (n + 1) / 6 = n / 6 by omega, show (n + 1) % 6 = n % 6 + 1 by omega]

theorem proc_none (y : NSt) (j : Nat) (hp : y.proc j = .absent) {x : NSt} (hx : nodeStep demoDB y (.proc j) = some x) : False := by
  unfold nodeStep at hx
  by_cases hc : y.crashed.isSome = true
  · rw [if_pos hc] at hx; cases hx
  · rw [if_neg hc] at hx
    simp only [procStep, hp] at hx
    cases hx

theorem mod6 (n : Nat) : n % 6 ≤ 6 := by omega

theorem postponed_fair : FairCtl postponed := by
  have st : ∀ n, postponed.st n = mid (n / 6) (rounds (n / 6)) (n % 6) := fun n => rfl
  refine ⟨fun h => ?_, fun k h => ?_, fun ref j h => ?_, fun _ n => ?_, fun t n => ?_⟩
  · exfalso
    obtain ⟨m, -, l, s', ⟨a, rfl⟩, hs⟩ := h 0
    obtain ⟨g1, g2, -⟩ := mid_fields (rounds_ok (m / 6)) _ (mod6 m)
    rw [st] at hs
    unfold cStep at hs
    rw [g1] at hs
    simp only [Option.isSome_none, Bool.false_eq_true, if_false, discStep, g2, reduceCtorEq] at hs
  · exfalso
    obtain ⟨m, hm, l, s', rfl, hs⟩ := h (6 * k + 6)
    obtain ⟨g1, g2, g3, g4, g5, g6, g7, -⟩ := mid_fields (rounds_ok (m / 6)) _ (mod6 m)
    rw [st] at hs
    unfold cStep at hs
    rw [g1] at hs
    have hd := g6 k (by omega)
    simp only [Option.isSome_none, Bool.false_eq_true, if_false, deliverStep] at hs
    rcases hd with hd | hd <;> rw [hd] at hs <;> cases hs
  · exfalso
    obtain ⟨m, hm, l, s', rfl, hs⟩ := h 0
    obtain ⟨g1, g2, g3, g4, g5, g6, g7, g8, -⟩ := mid_fields (rounds_ok (m / 6)) _ (mod6 m)
    rw [st] at hs
    unfold cStep at hs
    rw [g1] at hs
    simp only [Option.isSome_none, Bool.false_eq_true, if_false, g4] at hs
    split at hs
    · rename_i hlt
      have : ref = 0 := by omega
      subst this
      rw [g8, Option.map_eq_some_iff] at hs
      obtain ⟨x, hx, -⟩ := hs
      exact proc_none _ j (by split <;> exact (rounds_ok _).proc j) hx
    · cases hs
  · refine ⟨6 * n + 4, .saver .trigger, by omega, ?_, _, rfl⟩
    show some (midLab ((6 * n + 4) / 6) ((6 * n + 4) % 6)) = _
    rw [show (6 * n + 4) % 6 = 4 by omega]
    rfl
  · refine ⟨6 * (n + t), by omega, .inl ?_⟩
    have := (mid_fields (rounds_ok ((6 * (n + t)) / 6)) _ (mod6 (6 * (n + t)))).2.2.2.2.2.2.2.2.2.2.2.2
    rw [st, this]
    rw [show 6 * (n + t) % 6 = 0 by omega, show 6 * (n + t) / 6 = n + t by omega]
    simp only [Nat.zero_le, if_true]
    omega

/-- C97 is false for updates that never pause: in this fair execution without a crash, with a saver that is not stuck, an update comes every
nine seconds for ever, and nothing is ever saved. -/
theorem C97_violated_postponed : ∃ e : Exec (cStep demoDB), FairCtl e ∧ CReach demoDB true [] (e.st 0) ∧
    (∀ m, (e.st m).crashed = none ∧ (e.st m).disc = .done ∧ (e.st m).saver ≠ .absent ∧ (e.st m).saver ≠ .stuck ∧ saves (e.st m).hist = 0) ∧
    ∀ k, ∃ m, updates (e.st m).hist = k ∧ (e.st m).now = 9000 * k := by
  refine ⟨postponed, postponed_fair, round0_ok.2, fun m => ?_, fun k => ⟨6 * k, ?_⟩⟩
  · obtain ⟨g1, g2, g3, g4, g5, g6, g7, g8, g9, g10, g11, g12, g13⟩ := mid_fields (rounds_ok (m / 6)) _ (mod6 m)
    refine ⟨g1, g2, ?_, ?_, g12⟩
    all_goals
      show (mid (m / 6) (rounds (m / 6)) (m % 6)).saver ≠ _
      rcases g10 with g | ⟨t, g⟩ <;> rw [g] <;> simp
  · obtain ⟨g1, g2, g3, g4, g5, g6, g7, g8, g9, g10, g11, g12, g13⟩ := mid_fields (rounds_ok ((6 * k) / 6)) _ (mod6 (6 * k))
    have a : 6 * k % 6 = 0 := by omega
    have b : 6 * k / 6 = k := by omega
    rw [a, b] at g11 g13
    show updates (mid (6 * k / 6) (rounds (6 * k / 6)) (6 * k % 6)).hist = k ∧ (mid (6 * k / 6) (rounds (6 * k / 6)) (6 * k % 6)).now = _
    rw [a, b]
    exact ⟨by simpa using g11, by simpa using g13⟩

end Verif.Props
