import Verif.Lemmas.CtlFair
import Verif.Props.Ctl

/-
C97: what is bound to happen in a controller. C44, C47 and C72 say what can be reached; here: what is reached in
every infinite execution in which no goroutine is passed over for ever and time goes on.
-/

set_option linter.unusedSimpArgs false
set_option linter.unusedVariables false

namespace Verif.Props

open Verif.Go Verif.Model Verif.Spec Verif.Lemmas Verif.Lemmas.NodeM Verif.Lemmas.Ctl

variable {db : DB} {f : Bool} {ns : List Node} {e : Exec (cStep db)}

theorem cor_dead {P : CSt → Prop} (n : Nat)
    (h : (∀ m, (e.st m).crashed = none) → ∃ m, n ≤ m ∧ P (e.st m)) :
    ∃ m, n ≤ m ∧ ((e.st m).crashed ≠ none ∨ P (e.st m)) := by
  apply Classical.byContradiction
  intro hno
  have hn : ∀ m, n ≤ m → (e.st m).crashed = none := fun m hm =>
    Classical.byContradiction fun hc => hno ⟨m, hm, .inl hc⟩
  obtain ⟨m, hm, hP⟩ := h (calive_before n hn)
  exact hno ⟨m, hm, .inr hP⟩

/-- C97: a discovery that was begun comes to its end. -/
theorem C97_discovery_ends (hf : FairCtl e) (hg : GoodFile ns) (hr : CReach db f ns (e.st 0)) (n : Nat)
    (hd : (e.st n).disc ≠ .absent) : ∃ m, n ≤ m ∧ ((e.st m).crashed ≠ none ∨ (e.st m).disc = .done) := by
  refine cor_dead (P := fun s => s.disc = .done) n fun hn => ?_
  by_cases hw : (e.st n).disc = .wait
  · obtain ⟨m, h1, h2⟩ := wait_ends hf hg hr hn n hw
    obtain ⟨m', h3, h4⟩ := disc_ends hf hg hr hn m h2
    exact ⟨m', by omega, h4⟩
  · exact disc_ends hf hg hr hn n (by cases hx : (e.st n).disc <;> first | rfl | exact absurd hx hd | exact absurd hx hw)

/-- C97: a report from a node in the list is applied to that node. (Missing: the delivery that copies the list
while a node is being added, which gets stuck, see `C97_violated_stuck`.) -/
theorem C97_report_applied_partial (hf : FairCtl e) (hg : GoodFile ns) (hr : CReach db f ns (e.st 0)) (n k ref : Nat)
    (id : UInt8) (r : Report) (hk : k < (e.st n).nDeliv) (hd : (e.st n).deliv k = .call id r)
    (hid : (e.st n).list.get (id.toNat : Int) = some ref) :
    ∃ m, n ≤ m ∧ ((e.st m).crashed ≠ none ∨ CEv.applied k ref r ∈ (e.st m).hist ∨
      (e.st m).deliv k = .stuck ∧ ∃ m', n ≤ m' ∧ (e.st m').disc.locks = true) := by
  refine cor_dead (P := fun s => CEv.applied k ref r ∈ s.hist ∨ s.deliv k = .stuck ∧ ∃ m', n ≤ m' ∧ (e.st m').disc.locks = true) n
    fun hn => ?_
  obtain ⟨m, h1, ⟨m', h2, h3, h4, h5⟩ | ⟨h2, h3, h4⟩⟩ := call_ends hf hg hr hn k id r ref n hk hd hid
  · exact ⟨m, h1, .inr ⟨h5, m', h2, h4⟩⟩
  · obtain ⟨m2, g1, g2, g3⟩ := look_ends hf hg hr hn k id r ref m h2 h3 h4
    obtain ⟨m3, g4, g5⟩ := process_ends hf hg hr hn k ref r m2 g2 g3
    exact ⟨m3, by omega, .inl g5⟩

/-- After the discovery. -/
theorem done_stays (n : Nat) (hd : (e.st n).disc = .done) : ∀ m, n ≤ m → (e.st m).disc = .done := by
  refine exec_keep e (Q := fun s => s.disc = .done) (fun s l s' h hs => ?_) hd
  obtain ⟨h1, h2⟩ := disc_left (by rw [h]; rfl) hs
  rw [h] at h2
  simp only [discLeft] at h2
  cases hx : s'.disc <;> simp_all [discLeft, DiscAt.before]

/-- C97: a controller without a file, after the discovery: every report from a node in the list is applied to that
node, whatever else goes on; nothing is missing. -/
theorem C97_report_applied (hf : FairCtl e) (hg : GoodFile ns) (hr : CReach db false ns (e.st 0)) (n k ref : Nat)
    (id : UInt8) (r : Report) (hk : k < (e.st n).nDeliv) (hd : (e.st n).deliv k = .call id r)
    (hid : (e.st n).list.get (id.toNat : Int) = some ref) (hdone : (e.st n).disc = .done) (hc : (e.st n).crashed = none) :
    ∃ m, n ≤ m ∧ (e.st m).crashed = none ∧ CEv.applied k ref r ∈ (e.st m).hist := by
  have hds := done_stays n hdone
  have hcs : ∀ m, n ≤ m → (e.st m).crashed = none := by
    intro m hm
    induction hm with
    | refl => exact hc
    | step hm ih =>
      next m =>
      have hnx := e.next m
      split at hnx
      · rcases C73_no_file_no_crash_partial db ns hg _ _ (cexec_reach hr m) ih _ hnx with h | h
        · exact h
        · rw [hds m hm] at h; cases h
      · rw [hnx]; exact ih
  obtain ⟨m, hm, h | h | ⟨-, m', h1, h2⟩⟩ := C97_report_applied_partial hf hg hr n k ref id r hk hd hid
  · exact absurd (hcs m hm) h
  · exact ⟨m, hm, hcs m hm, h⟩
  · rw [hds m' h1] at h2; cases h2

/-- C97: what was changed is written to the file: after the discovery, if there is a file, the saver runs and has
not got stuck, and no more updates come, then a save begins after the last update and is completed. (Missing: a stuck
saver, `C47_violated_saver_stuck`, and updates that never pause, `C47_stream_postpones_save`.) -/
theorem C97_saved_partial (hf : FairCtl e) (hr : CReach db true ns (e.st 0)) (n : Nat) (hd : (e.st n).disc = .done)
    (ha : (e.st n).saver ≠ .absent) (hs : (e.st n).saver ≠ .stuck)
    (hu : ∀ m, n ≤ m → updates (e.st m).hist = updates (e.st n).hist) :
    ∃ m, n ≤ m ∧ ((e.st m).crashed ≠ none ∨ unsaved (e.st m).hist = false ∧ saving (e.st m).hist = false) :=
  cor_dead (P := fun s => unsaved s.hist = false ∧ saving s.hist = false) n fun hn => saved_ends hf hr hn n hd ha hs hu

/-- A run that ends at rest, continued by the passing of time, is a fair execution. -/
theorem cfair_of_run {fl : Bool} {ns : List Node} (hg : GoodFile ns) {ls : List CLabel} {p : CSt → Bool}
    (hp : ∀ s t, p { s with now := t } = p s)
    (h : (cRun demoDB (start fl ns) ls).map (fun s => cRestB s && s.crashed.isNone && p s) = some true) :
    ∃ e : Exec (cStep demoDB), FairCtl e ∧ CReach demoDB fl ns (e.st 0) ∧
      (∀ n t, n ≤ ls.length → cRun demoDB (start fl ns) (ls.take n) = some t → e.st n = t) ∧
      ∀ n, ls.length ≤ n → (e.st n).crashed = none ∧ p (e.st n) = true := by
  cases hr : cRun demoDB (start fl ns) ls with
  | none => rw [hr] at h; cases h
  | some s =>
    rw [hr] at h
    simp only [Option.map_some, Option.some.injEq, Bool.and_eq_true, Option.isNone_iff_eq_none] at h
    obtain ⟨⟨h1, h2⟩, h3⟩ := h
    refine ⟨cexecOf demoDB _ ls s hr h2, cquiet_fair hr h2 (cquiet_of_rest (cinv hg ⟨_, hr⟩) h1),
      by rw [cexecOf_start]; exact ⟨[], rfl⟩, fun n t hn ht => cexecOf_mid hr h2 n hn ht, fun n hn => ?_⟩
    rw [cexecOf_end hr h2 n hn]
    exact ⟨h2, by rw [hp]; exact h3⟩

/-- Fair executions exist in which a node is discovered, reports its state and is saved; the hypotheses of the
theorems hold at the moments 1, 12 and 13. -/
example : ∃ e : Exec (cStep demoDB), FairCtl e ∧ CReach demoDB true [] (e.st 0) ∧ (e.st 1).disc ≠ .absent ∧
    (e.st 12).deliv 0 = .call 2 repOn ∧ (e.st 12).list.get 2 = some 0 ∧ (e.st 12).disc = .done ∧
    (∃ n, unsaved (e.st n).hist = true ∧ (e.st n).disc = .done ∧ (e.st n).saver = .idle ∧
      ∀ m, n ≤ m → updates (e.st m).hist = updates (e.st n).hist) := by
  let ls : List CLabel := discOne ++ deliverOne 0 repOn ++
    [.startSaver, .saver .trigger, .tick 10000, .saver .timer, .saver .differ, .saver .go, .saver .go, .saver .go, .saver .go, .saver .go]
  obtain ⟨e, h1, h2, h3, h4⟩ := cfair_of_run (fl := true) noFileGood (ls := ls) (p := fun s => updates s.hist == 1)
    (fun _ _ => rfl) (by decide +kernel)
  have v : ∀ n (p : CSt → Bool), n ≤ ls.length → (cRun demoDB (start true []) (ls.take n)).map p = some true → p (e.st n) = true := by
    intro n p hn hp
    cases hr : cRun demoDB (start true []) (ls.take n) with
    | none => rw [hr] at hp; cases hp
    | some t => rw [hr] at hp; rw [h3 n t hn hr]; simpa using hp
  refine ⟨e, h1, h2, ?_, ?_, ?_, ?_, 16, ?_⟩
  · simpa using v 1 (fun s => decide (s.disc ≠ .absent)) (by decide) (by decide +kernel)
  · simpa using v 12 (fun s => decide (s.deliv 0 = .call 2 repOn)) (by decide) (by decide +kernel)
  · simpa using v 12 (fun s => decide (s.list.get 2 = some 0)) (by decide) (by decide +kernel)
  · simpa using v 12 (fun s => decide (s.disc = .done)) (by decide) (by decide +kernel)
  · have u : ∀ m, 16 ≤ m → updates (e.st m).hist = 1 := by
      intro m hm
      by_cases hle : ls.length ≤ m
      · simpa using (h4 m hle).2
      · have : m = 16 ∨ m = 17 ∨ m = 18 ∨ m = 19 ∨ m = 20 ∨ m = 21 ∨ m = 22 ∨ m = 23 ∨ m = 24 := by
          have : ls.length = 25 := by decide
          omega
        rcases this with rfl | rfl | rfl | rfl | rfl | rfl | rfl | rfl | rfl
        all_goals simpa using v _ (fun s => decide (updates s.hist = 1)) (by decide) (by decide +kernel)
    refine ⟨?_, ?_, ?_, fun m hm => by rw [u m hm, u 16 (Nat.le_refl _)]⟩
    · simpa using v 16 (fun s => decide (unsaved s.hist = true)) (by decide) (by decide +kernel)
    · simpa using v 16 (fun s => decide (s.disc = .done)) (by decide) (by decide +kernel)
    · simpa using v 16 (fun s => decide (s.saver = .idle)) (by decide) (by decide +kernel)

/-- C97 is false for a report that arrives while another node is being added: in a fair execution without any crash
it is never applied, although its node is in the list from the start. -/
theorem C97_violated_stuck : ∃ e : Exec (cStep demoDB), FairCtl e ∧ CReach demoDB false [fileNode 2] (e.st 0) ∧
    ∃ n, ∀ m, n ≤ m → (e.st m).crashed = none ∧ (e.st m).list.get 2 = some 0 ∧
      arrivalOf 0 (e.st m).hist = some (2, repOn) ∧ timesApplied 0 (e.st m).hist = 0 := by
  obtain ⟨e, h1, h2, -, h4⟩ := cfair_of_run (fl := false) fileGood
    (ls := [.startDisc, .disc (.nodes [true, false, true]), .arrive 2 repOn, d, d, .deliver 0] ++ List.replicate 7 d)
    (p := fun s => decide (s.list.get 2 = some 0 ∧ arrivalOf 0 s.hist = some (2, repOn) ∧ timesApplied 0 s.hist = 0))
    (fun _ _ => rfl) (by decide +kernel)
  refine ⟨e, h1, h2, 13, fun m hm => ?_⟩
  obtain ⟨g1, g2⟩ := h4 m (by simpa using hm)
  exact ⟨g1, by simpa using g2⟩

/-- C97 is false for a saver that begins while a node is being added: in a fair execution without any crash an update
is never written to the file. -/
theorem C97_violated_never_saved : ∃ e : Exec (cStep demoDB), FairCtl e ∧ CReach demoDB true [fileNode 2] (e.st 0) ∧
    ∃ n, ∀ m, n ≤ m → (e.st m).crashed = none ∧ updates (e.st m).hist = 1 ∧ saving (e.st m).hist = true := by
  obtain ⟨e, h1, h2, -, h4⟩ := cfair_of_run (fl := true) fileGood (ls := stuckRun ++ List.replicate 7 d)
    (p := fun s => decide (updates s.hist = 1 ∧ saving s.hist = true)) (fun _ _ => rfl) (by decide +kernel)
  refine ⟨e, h1, h2, (stuckRun ++ List.replicate 7 d).length, fun m hm => ?_⟩
  obtain ⟨g1, g2⟩ := h4 m hm
  exact ⟨g1, by simpa using g2⟩

end Verif.Props
