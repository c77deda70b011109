import Verif.Props.Reported
import Verif.Props.Persist

/-
The values in the steps of a controller that is part of a process come from bytes, for C117.
-/

set_option linter.unusedSimpArgs false
set_option linter.unusedVariables false
set_option maxHeartbeats 4000000

namespace Verif.Lemmas.Lives

open Verif.Go Verif.Model Verif.Model.Conn Verif.Spec Verif.Lemmas Verif.Lemmas.Conn Verif.Lemmas.Ctl Verif.Lemmas.NodeM
  Verif.Lemmas.EndToEnd Verif.Lemmas.System Verif.Lemmas.Process Verif.Lemmas.Persist Verif.Props

variable {lv : LoopVars} {db : DB} {f : Bool} {ns : List Node} {ls : List WLabel} {w : Whole} {xs : List Session}

/-- Where the values in a step come from. -/
def Evid (w : Whole) : CLabel → Prop
  | .arrive n r => (n, r) ∈ arrivals w.sys.ctl.hist
  | .node _ (.ident _ (.report r)) => ∃ a x, Told w.sys.conn a (.ach x) ∧ x.report = r
  | .node _ (.report _) => False
  | .disc (.nodes bm) => ∃ a, Told w.sys.conn a (.nodes bm)
  | _ => True

theorem evid_mono {w w' : Whole} {l : WLabel} (h : wStep lv db w l = some w') {cl : CLabel} (he : Evid w cl) : Evid w' cl := by
  unfold Evid at he ⊢
  split at he
  · rw [mem_arrivals] at he ⊢
    obtain ⟨k, he⟩ := he
    refine ⟨k, ?_⟩
    rcases ctl_of h with ⟨cl, g, -⟩ | ⟨g, -⟩
    · exact System.hist_mono g he
    · rw [g]; exact he
  · obtain ⟨a, x, h1, h2⟩ := he
    exact ⟨a, x, told_mono h h1, h2⟩
  · exact he
  · obtain ⟨a, h1⟩ := he
    exact ⟨a, told_mono h h1⟩
  · trivial

theorem ident_ignores {s : NSt} {i : Nat} (h : awaits (s.ident i) = false) (a : Answer) :
    nodeStep db s (.ident i a) = nodeStep db s (.ident i .nothing) := by
  unfold nodeStep
  simp only [identStep]
  cases hx : s.ident i <;> rw [hx] at h <;> first
    | rfl
    | (cases h; done)
    | (next q => cases q <;> rfl)
    | skip

theorem step_evid {w w' : Whole} {l : WLabel} {cl : CLabel} (hi : WInv ns w) (h : wStep lv db w l = some w')
    (g : cStep db w.sys.ctl cl = some w'.sys.ctl) (hl : ctlLab w.sys (some (sysLab w l)) = some cl) :
    ∃ cl', cStep db w.sys.ctl cl' = some w'.sys.ctl ∧ Evid w' cl' := by
  cases cl with
  | arrive n r =>
    refine ⟨_, g, ?_⟩
    show (n, r) ∈ arrivals w'.sys.ctl.hist
    rw [arrivals_step g]
    simp
  | node ref l' =>
    cases l' with
    | ident i a =>
      have hl := ctl_lab hl (by simp)
      subst hl
      have hr : ref < w.sys.ctl.nHeap := by
        unfold cStep at g
        split at g
        · cases g
        · simp only at g; split at g
          · assumption
          · cases g
      by_cases hw : awaits ((w.sys.ctl.heap ref).ident i) = true
      · refine ⟨_, g, ?_⟩
        obtain ⟨k, u, e1, e2, e3⟩ := ident_told hi h hr hw
        cases a <;> try trivial
        next r =>
        unfold identAnswer at e3
        split at e3
        · simp only [Option.map_eq_some_iff] at e3
          obtain ⟨x, -, e4⟩ := e3
          unfold infoAnswer at e4
          repeat' split at e4
          all_goals cases e4
        · simp only [Option.map_eq_some_iff] at e3
          obtain ⟨x, h1, h2⟩ := e3
          cases x with
          | none => cases h2
          | some r' =>
            obtain ⟨b, m', c, hb, hd, hc⟩ := heardReport_got h1
            simp only [reportAnswer, Answer.report.injEq] at h2
            exact ⟨k, c, told_mono h ⟨u, b, m', e2, hb, hd⟩, by rw [hc, h2]⟩
      · refine ⟨.node ref (.ident i .nothing), ?_, trivial⟩
        rw [← g]
        unfold cStep
        simp only [ident_ignores (db := db) (Bool.not_eq_true _ ▸ hw) a]
    | proc j => exact ⟨_, g, trivial⟩
    | _ => 
      unfold cStep at g
      split at g <;> cases g
  | disc a =>
    cases a with
    | nodes bm =>
      by_cases hd : w.sys.ctl.disc = .wait
      · refine ⟨_, g, discAsk, ?_⟩
        refine (winv_step hi h).reply bm ?_
        unfold cStep at g
        split at g
        · cases g
        · simp only [discStep, hd] at g
          simp only [Option.some.injEq] at g
          rw [← g]
          simp
      · refine ⟨.disc .nothing, ?_, trivial⟩
        rw [← g]
        unfold cStep
        simp only [discStep]
        cases hx : w.sys.ctl.disc with
        | wait => exact absurd hx hd
        | loop t => cases t <;> rfl
        | _ => rfl
    | _ => exact ⟨_, g, trivial⟩
  | _ => exact ⟨_, g, trivial⟩

/-- The steps of the controller in a run of the process. -/
theorem evid_run (h : runSteps (wStep lv db) (wStart f ns) ls = some w) :
    ∃ cls, cRun db (start f ns) cls = some w.sys.ctl ∧ ∀ cl ∈ cls, Evid w cl := by
  refine (wrun_induct (P := fun w => WInv ns w ∧ ∃ cls, cRun db (start f ns) cls = some w.sys.ctl ∧ ∀ cl ∈ cls, Evid w cl)
    (fun w l w' hi hs => ⟨winv_step hi.1 hs, ?_⟩) ⟨winv_start f ns, [], rfl, by simp⟩ h).2
  obtain ⟨hi, cls, h1, h2⟩ := hi
  rcases ctl_of hs with ⟨cl, g, hl⟩ | ⟨g, -⟩
  · obtain ⟨cl', g', he⟩ := step_evid hi hs g hl
    refine ⟨cls ++ [cl'], ?_, fun x hx => ?_⟩
    · rw [cRun_append, h1]
      simp [cRun, g']
    · simp only [List.mem_append, List.mem_singleton] at hx
      rcases hx with hx | rfl
      · exact evid_mono hs (h2 x hx)
      · exact he
  · exact ⟨cls, by rw [g]; exact h1, fun x hx => evid_mono hs (h2 x hx)⟩

theorem decoded_of {fr : List UInt8} {b : UInt8} {r : Report} (h : IsReport fr b r) : Decoded r := by
  obtain ⟨c, k, p, -, h⟩ := h
  exact ⟨c, k, p, h⟩

theorem sensible_run (h : runSteps (wStep lv db) (wStart f ns) ls = some w) (hx : Arrived ls xs) (hc : w.sys.conn.crashed = none) :
    ∃ cls, cRun db (start f ns) cls = some w.sys.ctl ∧ ∀ cl ∈ cls, SensibleC cl := by
  obtain ⟨cls, h1, h2⟩ := evid_run h
  refine ⟨cls, h1, fun cl hcl => ?_⟩
  have he := h2 cl hcl
  cases cl with
  | arrive n r =>
    obtain ⟨⟨cs, hr, hs⟩, -⟩ := Verif.Lemmas.Process.run_parts h
    have he : (n, r) ∈ arrivals w.sys.ctl.hist := he
    rw [joined_run h] at he
    obtain ⟨fr, -, e⟩ := callback_wire hr hc (hs.trans hx.1) hx.2 he
    exact decoded_of e
  | node ref l =>
    cases l with
    | report r => cases he
    | ident i a =>
      cases a with
      | report r =>
        obtain ⟨a, x, e1, rfl⟩ := he
        obtain ⟨fr, g1, g2, msg, g3, g4, -⟩ := told_wire h hx hc e1
        exact decoded_of (ach_frame g2 g3 g4)
      | _ => trivial
    | _ => trivial
  | disc a =>
    cases a with
    | nodes bm =>
      obtain ⟨a, e1⟩ := he
      obtain ⟨fr, g1, ⟨body, hf, -⟩, msg, g3, g4, -⟩ := told_wire h hx hc e1
      obtain ⟨-, n, part, -, -, ed⟩ := nodes_msg (lone_new hf g3) g4
      show bm.length < 2 ^ 63
      rcases Nat.lt_or_ge part.vis.length 6 with hlt | hge
      · rw [(C14_discovery_bitmap part.vis).1 hlt] at ed; cases ed
      rcases Nat.lt_or_ge 29 part.vis.length with hlt | hge'
      · obtain ⟨p, e⟩ := (C14_discovery_bitmap part.vis).2.1 hlt
        rw [e] at ed; cases ed
      obtain ⟨a, e, el, -⟩ := (C14_discovery_bitmap part.vis).2.2 hge hge'
      rw [e] at ed
      cases ed
      omega
    | _ => trivial
  | _ => trivial

end Verif.Lemmas.Lives
