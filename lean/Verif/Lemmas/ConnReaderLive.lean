import Verif.Lemmas.ConnReader
import Verif.Lemmas.ConnScan
import Verif.Lemmas.ConnLive

/-
The reader can always work off what it has read.
-/

set_option linter.unusedSimpArgs false
set_option maxHeartbeats 4000000

namespace Verif.Lemmas.Conn

open Verif.Go Verif.Model Verif.Model.Conn Verif.Spec

/-- The work left within one action. -/
def rPhase (s : St) : Nat :=
  match s.reader with
  | .down | .read | .loop => 0
  | .exec => 1
  | .frameLock _ _ => 20 * s.inFlight.length + 10
  | r => if fCrit r then rRank r + 2 else sRank r + 1

/-- There is less work left of what has been read. -/
def Less (s1 s : St) : Prop :=
  s1.buf.len < s.buf.len ∨ (s1.buf.len = s.buf.len ∧ (s1.acts.length < s.acts.length ∨
    (s1.acts.length = s.acts.length ∧ rPhase s1 < rPhase s)))

theorem frame_keeps_lock {lv : LoopVars} {s s' : St} {op : ReaderOp} (h : step lv s (.reader op) = some s')
    (hf : fCrit s.reader = true) (hu : ∀ c, s.reader ≠ .frameUnlock c) (hc : s'.crashed = none) :
    s'.lock = s.lock := by
  conn_step h
  all_goals first
    | (exfalso; simp at hc; done)
    | (exfalso; simp_all [fCrit]; done)
    | (simp_all; done)

theorem rScan_phase {s : St} {c : Scan} (h : rScan s.reader = some c) : rPhase s = sRank s.reader + 1 := by
  unfold rPhase
  cases hx : s.reader <;> simp_all [rScan, fCrit]

theorem rScan_pos {r : ReaderAt} {c : Scan} (h : rScan r = some c) : 0 < sRank r := by
  cases r <;> simp_all [rScan, sRank]
  omega

theorem fCrit_phase {s : St} (h : fCrit s.reader = true) : rPhase s = rRank s.reader + 2 := by
  unfold rPhase
  cases hx : s.reader <;> simp_all [fCrit]

/-- The reader makes a step, and comes closer to waiting for bytes. -/
theorem reader_progress {lv : LoopVars} {s : St} (h : Reachable lv s) (hn : s.crashed = none)
    (hr : rRest s.reader = false) (hl : s.lock = none ∨ s.lock = some .scan ∨ s.lock = some .frame) :
    ∃ op s1, step lv s (.reader op) = some s1 ∧ (s1.crashed ≠ none ∨ rRest s1.reader = true ∨
      ((s1.lock = none ∨ s1.lock = some .scan ∨ s1.lock = some .frame) ∧ Less s1 s)) := by
  obtain ⟨-, -, L3, L4⟩ := lockInv h
  have hmap := mapInv h hn
  have hfree : sCrit s.reader = false → fCrit s.reader = false → s.lock = none := by
    intro h1 h2
    rcases hl with hl | hl | hl
    · exact hl
    · rw [L3.2 hl] at h1; cases h1
    · rw [L4.2 hl] at h2; cases h2
  by_cases hsc : ∃ c, rScan s.reader = some c
  · obtain ⟨c, hsc⟩ := hsc
    have hfc : fCrit s.reader = false := by cases hx : s.reader <;> simp_all [rScan, fCrit]
    have hne : s.reader ≠ .read ∧ s.reader ≠ .loop ∧ s.reader ≠ .exec ∧ ∀ c, s.reader ≠ .frameUnlock c := by
      cases hx : s.reader <;> simp_all [rScan]
    have hl' : s.lock = none ∨ s.lock = some .scan := by
      rcases hl with hl | hl | hl
      · exact .inl hl
      · exact .inr hl
      · rw [L4.2 hl] at hfc; cases hfc
    by_cases hmm : (∃ m, c.msg = some m) ∨ ∀ v, s.reader ≠ .scanNak c v ∧ s.reader ≠ .scanCan c v
    · obtain ⟨op, s1, h1, g1, g2, g3, g4⟩ := scan_progress h hn hsc hmm hl'
      have hs := inner_same h1 hne.1 hne.2.1 hne.2.2.1 hne.2.2.2 g2
      refine ⟨op, s1, h1, .inr (.inr ⟨?_, .inr ⟨by rw [hs.buf], .inr ⟨by rw [hs.acts], ?_⟩⟩⟩)⟩
      · rcases g3 with g3 | g3
        · exact .inl g3
        · exact .inr (.inl g3)
      · rw [rScan_phase hsc]
        rcases g4 with g4 | g4
        · have := rScan_pos hsc
          simp [rPhase, g4]; exact this
        · obtain ⟨c', hc', -⟩ := g4 c hsc
          rw [rScan_phase hc']; omega
    · have hm0 : c.msg = none := by
        cases hm : c.msg with
        | none => rfl
        | some m => exact absurd (.inl ⟨m, hm⟩) hmm
      have hx : ∃ v, s.reader = .scanNak c v ∨ s.reader = .scanCan c v := by
        apply Classical.byContradiction
        intro hx
        exact hmm (.inr fun v => ⟨fun h => hx ⟨v, .inl h⟩, fun h => hx ⟨v, .inr h⟩⟩)
      obtain ⟨v, hx | hx⟩ := hx <;>
        exact ⟨.go, _, by simp only [step, hn, Option.isSome_none, Bool.false_eq_true, if_false, readerStep, hx, hm0]; rfl,
          .inl (by simp [St.crash])⟩
  by_cases hfc : fCrit s.reader = true
  · by_cases hu : ∃ c, s.reader = .frameUnlock c
    · obtain ⟨c, hu⟩ := hu
      refine ⟨.go, ?_⟩
      simp only [step, hn, Option.isSome_none, Bool.false_eq_true, if_false, readerStep, hu]
      refine ⟨_, rfl, .inr (.inr ⟨.inl rfl, .inr ⟨rfl, .inr ⟨rfl, ?_⟩⟩⟩)⟩
      rw [fCrit_phase hfc, hu]
      simp [rPhase, rRank]
    · have hne : s.reader ≠ .read ∧ s.reader ≠ .loop ∧ s.reader ≠ .exec := by
        cases hx : s.reader <;> simp_all [fCrit]
      have hlk := L4.1 hfc
      obtain ⟨op, s1, h1, h2⟩ := progress_reader (lv := lv) (lockInv h) hn (.inr hlk)
      refine ⟨op, s1, h1, ?_⟩
      by_cases hc : s1.crashed = none
      · have hs := inner_same h1 hne.1 hne.2.1 hne.2.2 (fun c hc => hu ⟨c, hc⟩) hc
        have hk := frame_keeps_lock h1 hfc (fun c hc => hu ⟨c, hc⟩) hc
        obtain ⟨-, -, -, L4'⟩ := lockInv (reachable_step h h1)
        have hfc1 := L4'.2 (hk.trans hlk)
        rcases h2 with h2 | h2 | ⟨-, h2⟩
        · exact absurd hc h2
        · rw [hk, hlk] at h2; cases h2
        · refine .inr (.inr ⟨.inr (.inr (hk.trans hlk)), .inr ⟨by rw [hs.buf], .inr ⟨by rw [hs.acts], ?_⟩⟩⟩)
          rw [fCrit_phase hfc, fCrit_phase hfc1]
          simp only [rank, hk, hlk] at h2
          omega
      · exact .inl hc
  have hl0 := hfree (by
      cases hx : s.reader <;> simp_all [rScan, sCrit]) (by simpa using hfc)
  have hb : s.mapBusy = false := by rw [hmap]; simp [midOf, hl0]
  cases hx : s.reader <;> simp [hx, rScan, fCrit, rRest] at hsc hfc hr
  case loop =>
    refine ⟨.go, ?_⟩
    simp only [step, hn, Option.isSome_none, Bool.false_eq_true, if_false, readerStep, hx]
    split
    · exact ⟨_, rfl, .inr (.inl rfl)⟩
    · rename_i h0
      have hv : s.buf.vis ≠ [] := by
        intro hv; apply h0; simp [Slice.len, hv]
      cases hit : iter s.buf with
      | error p => exact ⟨_, rfl, .inl (by simp [St.crash])⟩
      | ok i =>
        cases i with
        | wait b => exact ⟨_, rfl, .inr (.inl rfl)⟩
        | drop b =>
          have := iter_drop_len hv hit
          exact ⟨_, rfl, .inr (.inr ⟨.inl hl0, .inl (by simp only; omega)⟩)⟩
        | done as r =>
          have := iter_done_len hv hit
          exact ⟨_, rfl, .inr (.inr ⟨.inl hl0, .inl this.1⟩)⟩
  case exec =>
    refine ⟨.go, ?_⟩
    simp only [step, hn, Option.isSome_none, Bool.false_eq_true, if_false, readerStep, hx]
    cases ha : s.acts with
    | nil => exact ⟨_, rfl, .inr (.inr ⟨.inl hl0, .inr ⟨rfl, .inr ⟨by simp [ha], by simp [rPhase, hx]⟩⟩⟩)⟩
    | cons a as =>
      cases a <;> exact ⟨_, rfl, .inr (.inr ⟨.inl hl0, .inr ⟨rfl, .inl (by simp [ha])⟩⟩)⟩
  case frameLock b m =>
    refine ⟨.go, ?_⟩
    simp only [step, hn, Option.isSome_none, Bool.false_eq_true, if_false, readerStep, hx, hl0, if_true]
    exact ⟨_, rfl, .inr (.inr ⟨.inr (.inr rfl), .inr ⟨rfl, .inr ⟨rfl, by simp [rPhase, hx, fCrit, rRank]⟩⟩⟩)⟩

theorem reader_returns {lv : LoopVars} {s : St} (h : Reachable lv s) (hn : s.crashed = none)
    (hl : s.lock = none ∨ s.lock = some .scan ∨ s.lock = some .frame) :
    ∃ ls s', (∀ l ∈ ls, ∃ op, l = .reader op) ∧ run lv s ls = some s' ∧
      (s'.crashed ≠ none ∨ rRest s'.reader = true) := by
  generalize hk : s.buf.len = k
  induction k using Nat.strongRecOn generalizing s with
  | _ k ih1 =>
  generalize hk2 : s.acts.length = k2
  induction k2 using Nat.strongRecOn generalizing s with
  | _ k2 ih2 =>
  generalize hk3 : rPhase s = k3
  induction k3 using Nat.strongRecOn generalizing s with
  | _ k3 ih3 =>
  cases hr : rRest s.reader with
  | true => exact ⟨[], s, by simp, rfl, .inr hr⟩
  | false =>
    obtain ⟨op, s1, h1, h2⟩ := reader_progress h hn hr hl
    have fin : (∃ ls s', (∀ l ∈ ls, ∃ op, l = .reader op) ∧ run lv s1 ls = some s' ∧
        (s'.crashed ≠ none ∨ rRest s'.reader = true)) →
        ∃ ls s', (∀ l ∈ ls, ∃ op, l = .reader op) ∧ run lv s ls = some s' ∧
        (s'.crashed ≠ none ∨ rRest s'.reader = true) := by
      rintro ⟨ls, s', a, b, c⟩
      refine ⟨.reader op :: ls, s', ?_, by simp [run, h1, b], c⟩
      intro l hl
      rcases List.mem_cons.1 hl with rfl | hl
      · exact ⟨_, rfl⟩
      · exact a l hl
    apply fin
    by_cases hc : s1.crashed = none
    · rcases h2 with h2 | h2 | ⟨h2, h3⟩
      · exact absurd hc h2
      · exact ⟨[], s1, by simp, rfl, .inr h2⟩
      · have hr1 := reachable_step h h1
        rcases h3 with h3 | ⟨h3, h4 | ⟨h4, h5⟩⟩
        · exact ih1 _ (hk ▸ h3) hr1 hc h2 rfl
        · exact ih2 _ (hk2 ▸ h4) hr1 hc h2 (h3.trans hk) rfl
        · exact ih3 _ (hk3 ▸ h5) hr1 hc h2 (h3.trans hk) (h4.trans hk2) rfl
    · exact ⟨[], s1, by simp, rfl, .inl hc⟩

end Verif.Lemmas.Conn
