import Verif.Lemmas.ConnCrash
import Verif.Spec.Crash
import Verif.Props.ConnChan
import Verif.Props.ConnLive

/-
C83, C84: why the process can die while it talks to the stick, in every interleaving.
-/

set_option linter.unusedSimpArgs false
set_option maxHeartbeats 4000000

namespace Verif.Props

open Verif.Go Verif.Model Verif.Model.Conn Verif.Spec Verif.Lemmas Verif.Lemmas.Conn

/-! ## C84 -/

theorem newMessage_rejected {b : UInt8} {rest sp : List UInt8} {e : Err}
    (h : newMessage ⟨b :: rest, sp⟩ = .ok (.error e)) : 3 ≤ rest.length := by
  unfold newMessage at h
  obtain ⟨x, hx, h⟩ := bind_eq_ok.1 h
  split at h
  · cases h
  obtain ⟨_, -, h⟩ := bind_eq_ok.1 h
  obtain ⟨_, -, h⟩ := bind_eq_ok.1 h
  obtain ⟨y, hy, h⟩ := bind_eq_ok.1 h
  unfold Slice.get at hy
  split at hy
  · rename_i z hz
    have := (List.getElem?_eq_some_iff.1 hz).1
    simp at this
    omega
  · cases hy

theorem cause_short {s : St} {c : Scope} {u : Nat} {p : Panic} (h : s.reader = .frameMatch c u)
    (hm : (s.req u).pkg.match_ c.buf.vis = .error p) : Cause s (.reader .go) p := by
  refine .short c u p h hm ?_
  rcases Nat.lt_or_ge c.buf.vis.length 9 with hl | hl
  · exact hl
  · obtain ⟨b, hb⟩ := C31_no_crash_partial (s.req u).pkg c.buf.vis hl
    rw [hb] at hm; cases hm

theorem cause_reply {lv : LoopVars} {s : St} {u : Nat} {buf : Slice} {l : List (Slice × Option Message)} (h : Reachable lv s)
    (hc : s.client u = .received ∧ (s.req u).kind = .waitReport) (hg : s.got u = (buf, none) :: l) :
    Cause s (.client u .handle) .nilDeref := by
  obtain ⟨⟨body, f, tail, r, -, -, hr, hm⟩, -⟩ := (dataInv h).got u (buf, none) (by rw [hg]; exact List.mem_cons_self)
  cases r with
  | ok m => cases hm
  | error e => exact .reply u buf e hc.1 hc.2 (by rw [hg]; rfl) hr

theorem cause_ack {lv : LoopVars} {s : St} {c : Scan} {u : Nat} (h : Reachable lv s) (hr : s.reader = .scanNak c u)
    (hm : c.msg = none) : Cause s (.reader .go) .nilDeref := by
  obtain ⟨rest, sp, r, h1, h2⟩ := (ctrlInv h).scan c (by rw [hr]; rfl)
  rw [hm] at h2
  cases r with
  | ok m => cases h2
  | error e => exact .ack c u rest sp e hr (newMessage_rejected h1) h1 hm

/-- C84, the complete list of causes: a step that kills the process is one of those in `Cause`. (Missing for C84:
that there is no cause; see the counterexamples below.) -/
theorem C84_crash_causes_partial {lv : LoopVars} {s s' : St} {l : Label} {p : Panic} (h : Reachable lv s)
    (hs : step lv s l = some s') (hc : s'.crashed = some p) : Cause s l p := by
  have hr' := reachable_step h hs
  obtain ⟨-, -, -, hclose, hsend⟩ := C33_at_most_one_reply hr' 0
  have hnm := noNilMap hr'
  have hci := ctrlInv h
  have hdi := dataInv h
  have hn : s.crashed = none := by
    unfold step at hs
    split at hs
    · cases hs
    · rename_i hx; simpa using hx
  have hraceFree : p = .mapRace → Cause s l p := by
    intro e
    subst e
    obtain ⟨c, op, hr, rfl⟩ := mapRace_scan h hs hc
    have hne : c.must ≠ [] ∨ c.seen ≠ [] := by
      refine Classical.byContradiction fun hx => ?_
      have h1 : c.must = [] := Classical.byContradiction fun h => hx (.inl h)
      have h2 : c.seen = [] := Classical.byContradiction fun h => hx (.inr h)
      simp only [step, hn, readerStep, hr, h1, h2] at hs
      cases op <;> simp at hs
      · exact absurd h2 (hs.1 h1)
      · rw [if_neg (fun hx => hx.2 h1 h2), if_pos h1] at hs
        injection hs with hs
        rw [← hs] at hc; simp at hc
    refine .race c op hr ?_ hne
    cases hb : s.mapBusy with
    | true => rfl
    | false =>
      exfalso
      have hnn : ¬ (c.must = [] ∧ c.seen = []) := fun hx => hne.elim (· hx.1) (· hx.2)
      simp only [step, hn, readerStep, hr, hb, hnn] at hs
      cases op <;> simp at hs
      · rw [← hs.2.2] at hc; simp [hn] at hc
      · rw [← hs.2] at hc; simp [hn] at hc
  rcases p with _ | _ | _ | _ | _ | _ | _
  case close => exact absurd hc hclose
  case send => exact absurd hc hsend
  case nilMap => exact absurd hc hnm
  case mapRace => exact hraceFree rfl
  all_goals
    clear hclose hsend hnm hraceFree hr'
    conn_step hs
    all_goals first
      | (simp [hn] at hc; done)
      | (exfalso; simp at hc; done)
      | skip
  all_goals first
    | exact (nsp_err (by assumption)).elim
    | (dsimp only at hc
       injection hc with hc
       subst hc
       exact .bytes _ (by assumption) (len_ne_zero (by assumption)) (by assumption) (iter_err (by assumption) (by assumption)))
    | (dsimp only at hc
       injection hc with hc
       subst hc
       exact cause_short (by assumption) (by assumption))
    | exact cause_reply h (by assumption) (by assumption)
    | exact .port _ _ (by assumption) (by assumption)
    | exact cause_ack h (by assumption) (by assumption)
    | (exfalso; exact hci.looked _ (by rw [(by assumption : s.reader = _)]; rfl) (by assumption))

/-! Every cause occurs. -/

/-- A request is handed to the stick, and its caller waits for a report. -/
def exAsked : List Label := [.connect true, .submit xReq .waitReport true 0x03] ++ xSend 0 0 ++ [.client 0 .readField]

/-- C84 does not hold: the stick acknowledges the command and its response arrives in the same read (`06` and
`01 04 01 13 01 E8`, as after every send): the process dies. -/
theorem C84_violated_ack_with_response (lv : LoopVars) : ∃ s, Reachable lv s ∧ s.crashed = some .nilDeref := by
  refine reach_view (ls := exAsked ++ xRead [0x06, 0x01, 0x04, 0x01, 0x13, 0x01, 0xE8] ++ xHit 0 0)
    (f := fun s => s.crashed) (a := some .nilDeref) ?_
  cases lv <;> decide +kernel

/-- C84 does not hold, whatever the command: if an acknowledgement and the beginning of a frame are in the buffer
together while the acknowledged command is in the table, the next steps of the reader can kill the process. -/
theorem C84_violated_ack_with_frame {lv : LoopVars} {s : St} (h : Reachable lv s) (hn : s.crashed = none)
    (hr : s.reader = .loop) (hl : s.lock = none) (u : Nat) (hu : s.lastCommand = some u) (hi : u ∈ s.inFlight)
    (b len type : UInt8) (rest : List UInt8) (hb : b = 0x06 ∨ b = 0x15 ∨ b = 0x18) (ht : type = 0 ∨ type = 1)
    (hv : s.buf.vis = b :: 0x01 :: len :: type :: rest) :
    ∃ (ls : List ReaderOp) (s' : St), run lv s (ls.map .reader) = some s' ∧ s'.crashed = some .nilDeref := by
  have hm : newMessage ⟨b :: 0x01 :: len :: type :: rest, s.buf.spare⟩ = .ok (.error .dropping) := by
    rcases ht with rfl | rfl <;> rfl
  have hit : ∃ rest', iter s.buf = .ok (.done [.ctrl b none] rest') := by
    have hs := iter_spec s.buf.vis s.buf.spare (by simp [hv])
    rw [show (⟨s.buf.vis, s.buf.spare⟩ : Slice) = s.buf from rfl] at hs
    generalize hx : iter s.buf = x at hs
    rw [hv] at hs
    have hb1 : b ≠ 0x01 := by rcases hb with rfl | rfl | rfl <;> decide
    cases hs with
    | wait1 h => cases h
    | wait L r h _ => injection h with h _; exact absurd h hb1
    | dropZero r h => injection h with h _; exact absurd h hb1
    | dropBad L ck body tail h _ _ => injection h with h _; exact absurd h hb1
    | dropJunk b' r h hj => injection h with h _; subst h; simp_all
    | frame L ck body tail m h _ _ _ => injection h with h _; exact absurd h hb1
    | ctrl b' r m h h2 h3 =>
      injection h with e1 e2
      subst e1 e2
      obtain ⟨q, hq, rfl⟩ := h3
      rw [hm] at hq
      cases hq
      exact ⟨_, rfl⟩
    | panicFrame L ck body tail p h _ _ _ => injection h with h _; exact absurd h hb1
    | panicCtrl b' r p h h2 h3 => injection h with e1 e2; subst e1 e2; rw [hm] at h3; cases h3
  obtain ⟨rest', hit⟩ := hit
  have hbusy : s.mapBusy = false := by
    have := mapInv h hn
    rw [this]
    simp [midOf, hl]
  have hlen : s.buf.len ≠ 0 := by simp [Slice.len, hv]
  have hne : s.inFlight ≠ [] := fun hx => by rw [hx] at hi; cases hi
  refine ⟨[.go, .go, .pick u, .go, .go, .skip, .go], ?_⟩
  simp only [List.map, run, step, readerStep, hn, hr, hit, hlen, hbusy, hne, hi, hl, hu, Option.isSome_none, Bool.false_eq_true,
    if_false, if_true, Option.bind_some, List.not_mem_nil, not_false_eq_true, and_self, and_true, St.crash]
  exact ⟨_, rfl, rfl⟩

/-- The hypotheses are met after any send. -/
example : (run .perLoop init (exAsked ++ [.reader (.read ⟨[0x06, 0x01, 0x04, 0x01, 0x13, 0x01, 0xE8], false, 0⟩)])).map
    (fun s => (s.crashed.isNone, decide (s.reader = .loop), s.lock.isNone, s.lastCommand, s.inFlight)) =
    some (true, true, true, some 0, [0]) := by decide +kernel

/-- C84 does not hold: a report that was asked for arrives with a valid checksum but without a value; the goroutine
that waits for it uses the nil message. -/
theorem C84_violated_undecodable_report (lv : LoopVars) : ∃ s, Reachable lv s ∧ s.crashed = some .nilDeref := by
  refine reach_view (ls := exAsked ++ xRead [0x01, 0x08, 0x00, 0x04, 0x00, 0x02, 0x02, 0x25, 0x03, 0xD5] ++
      [.reader .go, .reader (.pick 0), .reader .go, .reader .go, .reader .deliver, .client 0 .handle])
    (f := fun s => s.crashed) (a := some .nilDeref) ?_
  cases lv <;> decide +kernel

/-- C84 does not hold: a short frame of the right function is compared with a request. -/
theorem C84_violated_short_frame (lv : LoopVars) : ∃ s, Reachable lv s ∧ s.crashed = some .index := by
  refine reach_view (ls := [.connect true, .submit [0x13, 0x04, 0x03, 0x25, 0x01, 0xFF, 0x25] .write false 0] ++ xSend 0 0 ++
      xRead [0x01, 0x05, 0x00, 0x13, 0x01, 0x04, 0xEC] ++ [.reader .go, .reader (.pick 0), .reader .go])
    (f := fun s => s.crashed) (a := some .index) ?_
  cases lv <;> decide +kernel

/-- C84 does not hold: three bytes from the stick are enough. -/
theorem C84_violated_bytes (lv : LoopVars) : ∃ s, Reachable lv s ∧ s.crashed = some .index := by
  refine reach_view (ls := [.connect true, .reader (.read ⟨[0x06, 0x06, 0x06], false, 0⟩), .reader .go])
    (f := fun s => s.crashed) (a := some .index) ?_
  cases lv <;> decide +kernel

/-! ## C83 -/

theorem port_of_open {lv : LoopVars} : ∀ (ls : List Label) (s t : St) (a : Option Bool),
    ((s.port = .nil ↔ a ≠ some true) ∧ (s.reader ≠ .down → a = some true)) → run lv s ls = some t →
    (t.port = .nil ↔ ls.foldl openOf a ≠ some true) := by
  intro ls
  induction ls with
  | nil => intro s t a h hr; injection hr with hr; subst hr; exact h.1
  | cons l ls ih =>
    intro s t a h hr
    rw [run] at hr
    cases hs : step lv s l with
    | none => rw [hs] at hr; cases hr
    | some u =>
      rw [hs] at hr
      rw [List.foldl_cons]
      refine ih u t _ ?_ hr
      obtain ⟨h1, h2⟩ := h
      conn_step hs
      all_goals grind [ReaderAt.forget, openOf]

/-- C83, exactly when a writer kills the process: it is about to write, and the last `Open` failed. (Missing for
C83: that it does not happen; see `C83_violated`.) -/
theorem C83_write_crashes_exactly_partial {lv : LoopVars} {ls : List Label} {s s' : St} {w : Nat}
    (h : run lv init ls = some s) (hs : step lv s (.writer w) = some s') :
    s'.crashed = some .nilDeref ↔ (∃ u, s.writer w = .write u) ∧ lastOpen ls ≠ some true := by
  have hp := port_of_open ls init s none (by simp [init]) h
  have hn : s.crashed = none := by
    unfold step at hs
    split at hs
    · cases hs
    · rename_i hx; simpa using hx
  rw [show lastOpen ls ≠ some true ↔ s.port = .nil from hp.symm]
  clear hp h
  simp only [step, hn, writerStep] at hs
  constructor
  · intro hc
    rw [if_neg (by simp)] at hs
    repeat' split at hs
    all_goals first
      | (injection hs with hs; subst hs; simp [hn, St.crash] at hc; done)
      | (cases hs; done)
      | exact ⟨⟨_, by assumption⟩, by assumption⟩
  · rintro ⟨⟨u, hu⟩, hp⟩
    rw [hu, hp] at hs
    simp at hs
    rw [← hs]; rfl

theorem failed_after : ∀ (ls : List Label) (a : Option Bool),
    ls.foldl openOf a ≠ some true →
    (a = some true ∨ .connect true ∈ ls) →
    ∃ x y, ls = x ++ Label.connect false :: y ∧ (a = some true ∨ .connect true ∈ x) := by
  intro ls
  induction ls with
  | nil => intro a h1 h2; rcases h2 with h2 | h2; exact absurd h2 h1; cases h2
  | cons l ls ih =>
    intro a h1 h2
    rw [List.foldl_cons] at h1
    have other : (∀ ok, l ≠ .connect ok) → ∃ x y, l :: ls = x ++ Label.connect false :: y ∧ (a = some true ∨ .connect true ∈ x) := by
      intro hl
      have hf : openOf a l = a := by
        cases l <;> first | rfl | exact absurd rfl (hl _)
      rw [hf] at h1
      obtain ⟨x, y, e, f⟩ := ih a h1 (by
        rcases h2 with h2 | h2
        · exact .inl h2
        · rcases List.mem_cons.1 h2 with h2 | h2
          · exact absurd h2.symm (hl _)
          · exact .inr h2)
      exact ⟨l :: x, y, by rw [e]; rfl, f.imp id (List.mem_cons_of_mem _)⟩
    by_cases ht : l = .connect true
    · subst ht
      obtain ⟨x, y, e, -⟩ := ih (some true) h1 (.inl rfl)
      exact ⟨_ :: x, y, by rw [e]; rfl, .inr (by simp)⟩
    · by_cases hf : l = .connect false
      · subst hf
        by_cases ha : a = some true
        · exact ⟨[], ls, rfl, .inl ha⟩
        · have hm : Label.connect true ∈ ls := by
            rcases h2 with h2 | h2
            · exact absurd h2 ha
            · rcases List.mem_cons.1 h2 with h2 | h2
              · cases h2
              · exact h2
          obtain ⟨x, y, e, f⟩ := ih (some false) h1 (.inr hm)
          refine ⟨_ :: x, y, by rw [e]; rfl, .inr ?_⟩
          rcases f with f | f
          · cases f
          · exact List.mem_cons_of_mem _ f
      · refine other fun ok e => ?_
        cases ok
        · exact hf e
        · exact ht e

theorem writer_opened {lv : LoopVars} : ∀ (ls : List Label) (s t : St), run lv s ls = some t → t.nWriter ≠ s.nWriter →
    .connect true ∈ ls := by
  intro ls
  induction ls with
  | nil => intro s t h hn; injection h with h; subst h; exact absurd rfl hn
  | cons l ls ih =>
    intro s t h hn
    rw [run] at h
    cases hs : step lv s l with
    | none => rw [hs] at h; cases h
    | some u =>
      rw [hs] at h
      by_cases e : u.nWriter = s.nWriter
      · exact List.mem_cons_of_mem _ (ih u t h (by rw [e]; exact hn))
      · have : l = .connect true := by
          clear ih h hn
          conn_step hs
          all_goals first
            | exact absurd rfl e
            | (rename_i ok _ hok; rw [hok])
            | grind
        rw [this]; simp

/-- C83, as long as no `Open` fails after one that succeeded, no writer kills the process by writing. -/
theorem C83_no_failed_reopen_partial {lv : LoopVars} {ls : List Label} {s s' : St} {w : Nat}
    (h : run lv init ls = some s) (hs : step lv s (.writer w) = some s')
    (hf : ∀ a b, ls = a ++ .connect false :: b → .connect true ∉ a) : s'.crashed ≠ some .nilDeref := by
  intro hc
  obtain ⟨⟨u, hu⟩, ho⟩ := (C83_write_crashes_exactly_partial h hs).1 hc
  have hw : s.nWriter ≠ 0 := by
    intro e
    have := (fresh ⟨ls, h⟩).writer w (by omega)
    rw [hu] at this; cases this
  obtain ⟨x, y, e, f⟩ := failed_after ls none ho (.inr (writer_opened ls init s h hw))
  rcases f with f | f
  · cases f
  · exact hf x y e f

/-- A second port is in use after the first was lost, and its writer is about to write. -/
example : (run .perLoop init ([.connect false, .connect true, .reader .fail, .connect true, .submit xReq .waitReport true 0x03] ++
      .take 1 (.client 0) :: List.replicate 7 (.writer 1))).map (fun s => (s.crashed.isNone, s.writer 1, s.port)) =
    some (true, .write 0, .up) := by decide +kernel

/-- C83 does not hold: the port is lost and cannot be opened again at once; the next request kills the process. -/
theorem C83_violated (lv : LoopVars) : ∃ s, Reachable lv s ∧ s.crashed = some .nilDeref := by
  refine reach_view (ls := [.connect true, .reader .fail, .connect false, .submit xReq .waitReport true 0x03] ++
      .take 0 (.client 0) :: List.replicate 8 (.writer 0))
    (f := fun s => s.crashed) (a := some .nilDeref) ?_
  cases lv <;> decide +kernel

end Verif.Props
