import Verif.Props.ConnFair
import Verif.Props.CommandPath
import Verif.Props.Web

/-
C114: a command that is given to a node is in the end written to the port. C90 says what is written if something is;
here: it is bound to be.
-/

set_option linter.unusedSimpArgs false
set_option linter.unusedVariables false

namespace Verif.Props

open Verif.Go Verif.Model Verif.Model.Conn Verif.Spec Verif.Lemmas Verif.Lemmas.Conn

variable {lv : LoopVars} {e : Exec (step lv)}

/-- The request a writer has taken and not yet written. -/
def toWrite : WriterAt → Option Nat
  | .lock u | .clear u | .insert u | .inserting u | .setLast u | .timer u | .spawn u | .write u => some u
  | _ => none

theorem take_starts {s s' : St} {l : Label} {u : Nat} (hu : u < s.nReq) (hc : s.client u = .sending)
    (hs : step lv s l = some s') : s'.crashed ≠ none ∨ s'.client u = .sending ∨ ∃ w, toWrite (s'.writer w) = some u := by
  have key : s'.crashed ≠ none ∨ s'.client u = .sending ∨
      match l with
      | .take w _ => toWrite (s'.writer w) = some u
      | _ => False := by
    conn_step hs
    all_goals try (refine .inl ?_; simp; done)
    all_goals try (exact .inr (.inl hc))
    all_goals grind [upd, toWrite]
  refine key.imp_right (Or.imp_right fun h => ?_)
  cases l <;> first | exact absurd h (fun h => h) | exact ⟨_, h⟩

theorem write_moves {s s' : St} {w u : Nat} (ht : toWrite (s.writer w) = some u) (hs : step lv s (.writer w) = some s') :
    s'.crashed ≠ none ∨ toWrite (s'.writer w) = some u ∧ wDist (s'.writer w) < wDist (s.writer w) ∨
      (∃ m, Ev.cmd w u m ∈ s'.hist) ∧ s.port = .up ∨ Ev.lost w u ∈ s'.hist ∧ s.port = .closed := by
  conn_step hs
  all_goals try (refine .inl ?_; simp; done)
  all_goals grind [upd, toWrite, wDist]

/-- A request that a writer has taken is written or lost. -/
theorem taken_written (hf : FairConn e) (hr : Reachable lv (e.st 0)) (hn : ∀ n, (e.st n).crashed = none) (w u n : Nat)
    (ht : toWrite ((e.st n).writer w) = some u) : ∃ m, n ≤ m ∧
      ((∃ x, Ev.cmd w u x ∈ (e.st (m + 1)).hist) ∧ (e.st m).port = .up ∨
        Ev.lost w u ∈ (e.st (m + 1)).hist ∧ (e.st m).port = .closed) := by
  generalize hk : wDist ((e.st n).writer w) = k
  induction k using Nat.strongRecOn generalizing n with
  | _ k ih =>
    have hd : 0 < wDist ((e.st n).writer w) := by
      clear ih hk
      cases hx : (e.st n).writer w <;> rw [hx] at ht <;> simp [wDist, toWrite] at ht ⊢
    obtain ⟨m, s, hm, rfl, h1, h2, h3⟩ := writer_progress hf hr hn w n _ rfl hd
    rcases write_moves (by rw [h1]; exact ht) h3 with h4 | ⟨h4, h5⟩ | h4 | h4
    · exact absurd (hn _) h4
    · obtain ⟨m', g1, g2⟩ := ih _ (by rw [h1, hk] at h5; exact h5) (m + 1) h4 rfl
      exact ⟨m', by omega, g2⟩
    · exact ⟨m, hm, .inl h4⟩
    · exact ⟨m, hm, .inr h4⟩

/-- A request that waits for a writer is written or lost, at a moment from `n` on. -/
theorem sending_written (hf : FairConn e) (hr : Reachable lv (e.st 0)) (hn : ∀ n, (e.st n).crashed = none) (u n : Nat)
    (hw : 0 < (e.st n).nWriter) (hu : u < (e.st n).nReq) (hc : (e.st n).client u = .sending) : ∃ w m, n ≤ m ∧
      ((∃ x, Ev.cmd w u x ∈ (e.st (m + 1)).hist) ∧ (e.st m).port = .up ∨
        Ev.lost w u ∈ (e.st (m + 1)).hist ∧ (e.st m).port = .closed) := by
  obtain ⟨k, hk, h1⟩ := sending_ends hf hr hn u n hw hu hc
  have key : ∀ k, n ≤ k → (e.st k).client u = .sending ∨ ∃ w i, n ≤ i ∧ toWrite ((e.st i).writer w) = some u := by
    intro k hk
    induction hk with
    | refl => exact .inl hc
    | step hk ih =>
      next k =>
      have hk' : n ≤ k := hk
      refine ih.elim (fun ih => ?_) .inr
      have hnx := e.next k
      split at hnx
      · next l hl =>
        rcases take_starts (exec_req n hu k hk').1 ih hnx with h | h | ⟨w, h⟩
        · exact absurd (hn _) h
        · exact .inl h
        · exact .inr ⟨w, k + 1, by omega, h⟩
      · rw [hnx]; exact .inl ih
  rcases key k hk with h | ⟨w, i, hi, h⟩
  · rw [h] at h1; split at h1 <;> cases h1
  · obtain ⟨m, g1, g2⟩ := taken_written hf hr hn w u i h
    exact ⟨w, m, by omega, g2⟩

/-- C114: once the connection was up, every request that is given is in the end handed to the port, or to a port that was
closed in the meantime. -/
theorem C114_attempted (hf : FairConn e) (hr : Reachable lv (e.st 0)) (u n : Nat) (hw : 0 < (e.st n).nWriter)
    (hu : u < (e.st n).nReq) (hc : (e.st n).client u = .sending) : ∃ m, n ≤ m ∧ ((e.st m).crashed ≠ none ∨
      ∃ w, (∃ x, Ev.cmd w u x ∈ (e.st m).hist) ∨ Ev.lost w u ∈ (e.st m).hist) := by
  refine or_dead (P := fun s => ∃ w, (∃ x, Ev.cmd w u x ∈ s.hist) ∨ Ev.lost w u ∈ s.hist) n fun hn => ?_
  obtain ⟨w, m, h1, h2⟩ := sending_written hf hr hn u n hw hu hc
  exact ⟨m + 1, by omega, w, h2.imp And.left And.left⟩

/-- C114: while the port stays open it is in the end written to the port. (Missing: a port that is closed in between, see
`C114_violated_lost`.) -/
theorem C114_written_partial (hf : FairConn e) (hr : Reachable lv (e.st 0)) (u n : Nat) (hw : 0 < (e.st n).nWriter)
    (hu : u < (e.st n).nReq) (hc : (e.st n).client u = .sending) (hp : ∀ m, n ≤ m → (e.st m).port = .up) :
    ∃ m, n ≤ m ∧ ((e.st m).crashed ≠ none ∨ ∃ w x, Ev.cmd w u x ∈ (e.st m).hist) := by
  refine or_dead (P := fun s => ∃ w x, Ev.cmd w u x ∈ s.hist) n fun hn => ?_
  obtain ⟨w, m, h1, ⟨h2, -⟩ | ⟨-, h2⟩⟩ := sending_written hf hr hn u n hw hu hc
  · exact ⟨m + 1, by omega, w, h2⟩
  · rw [hp m h1] at h2; cases h2

theorem conn_hist_mono {s s' : St} {l : Label} (hs : step lv s l = some s') {x : Ev} (hx : x ∈ s.hist) : x ∈ s'.hist := by
  conn_step hs
  all_goals first
    | exact hx
    | exact List.mem_cons_of_mem _ hx
    | (simp [hx]; done)
    | grind

/-- C114: what is written is the frame of what was given. -/
theorem C114_frame_written_partial (hf : FairConn e) (hr : Reachable lv (e.st 0)) (n : Nat) {u : Nat} {data : List UInt8}
    {kind : Kind} {to : Bool} {er : UInt8} (hs : Ev.submit u data kind to er ∈ (e.st n).hist) (hd : data.length ≤ 253)
    (hc : (e.st n).client u = .sending) (hw : 0 < (e.st n).nWriter) (hp : ∀ m, n ≤ m → (e.st m).port = .up) :
    ∃ m, n ≤ m ∧ ((e.st m).crashed ≠ none ∨ ∃ w x, Ev.cmd w u x ∈ (e.st m).hist ∧ IsFrame (0x00 :: data) x) := by
  obtain ⟨m, h1, h2⟩ := C114_written_partial hf hr u n hw ((contents (exec_reach hr n)).submit _ _ _ _ _ hs).1 hc hp
  refine ⟨m, h1, h2.imp_right ?_⟩
  rintro ⟨w, x, h3⟩
  have hs' := exec_keep e (Q := fun s => Ev.submit u data kind to er ∈ s.hist) (fun s l s' h hs => conn_hist_mono hs h) hs m h1
  exact ⟨w, x, h3, C90_frame_of_request (exec_reach hr m) hs' h3 hd⟩

/-- C114: a request `/nodes/<id>/on` that reaches `Write`: in the end the frame that switches that very node on is written
to the port. -/
theorem C114_web_on_partial (hf : FairConn e) (hr : Reachable lv (e.st 0)) (n : Nat) (undef : Float64 → UInt8)
    (m m' : GoMap Int Node) (ho : OwnNumber m) (id : List Char) (i : Int) (nd : Node) (hd : Decimal id i)
    (hn : NodeAt m i nd) (h0 : 0 ≤ i) (h1 : i ≤ 255) {a : Web.Reply} (ha : Web.controlNode undef m m' id "on".toList = .ok a)
    {u : Nat} {data : List UInt8} {kind : Kind} {to : Bool} {er : UInt8} (hcm : data ∈ a.commands)
    (hs : Ev.submit u data kind to er ∈ (e.st n).hist) (hc : (e.st n).client u = .sending) (hw : 0 < (e.st n).nWriter)
    (hp : ∀ m, n ≤ m → (e.st m).port = .up) :
    ∃ m, n ≤ m ∧ ((e.st m).crashed ≠ none ∨ ∃ w x, Ev.cmd w u x ∈ (e.st m).hist ∧ ∃ b : UInt8, (b.toNat : Int) = i ∧
      (Supports nd 0x25 ∧ IsFrame [0x00, 0x13, b, 0x03, 0x25, 0x01, 0xFF, 0x25] x ∨
        ¬ Supports nd 0x25 ∧ Supports nd 0x26 ∧ IsFrame [0x00, 0x13, b, 0x03, 0x26, 0x01, 99, 0x25] x)) := by
  obtain ⟨k, h2, h3⟩ := C114_written_partial hf hr u n hw ((contents (exec_reach hr n)).submit _ _ _ _ _ hs).1 hc hp
  refine ⟨k, h2, h3.imp_right ?_⟩
  rintro ⟨w, x, h4⟩
  have hs' := exec_keep e (Q := fun s => Ev.submit u data kind to er ∈ s.hist) (fun s l s' h hs => conn_hist_mono hs h) hs k h2
  exact ⟨w, x, h4, C95_on_wire (exec_reach hr k) undef m m' ho id i nd hd hn h0 h1 ha hcm hs' h4⟩

/-! ### Instances -/

/-- The port is opened, node 7 is told to switch on, and the writer gets no answer. -/
def exGiven : List Label :=
  [.connect true, .submit [0x13, 7, 0x03, 0x26, 0x01, 99, 0x25] .write false 0] ++ xSend 0 0 ++ xGiveUp 0

/-- A fair execution that meets the hypotheses. -/
example : ∃ e : Exec (step .perIteration), FairConn e ∧ e.st 0 = init ∧ 0 < (e.st 2).nWriter ∧ (e.st 2).client 0 = .sending ∧
    Ev.submit 0 [0x13, 7, 0x03, 0x26, 0x01, 99, 0x25] .write false 0 ∈ (e.st 2).hist ∧
    (∀ m, 2 ≤ m → (e.st m).port = .up) := by
  obtain ⟨e, h1, h2, h3, h4⟩ := fair_of_run (ls := exGiven) (f := fun s => s.port) (a := .up) (by decide +kernel)
  have v : ∀ n (p : St → Bool), (run .perIteration init (exGiven.take n)).map p = some true → p (e.st n) = true := by
    intro n p hp
    cases hr : run .perIteration init (exGiven.take n) with
    | none => rw [hr] at hp; cases hp
    | some t => rw [hr] at hp; rw [h3 n t hr]; simpa using hp
  refine ⟨e, h1, h2, ?_, ?_, ?_, fun m hm => ?_⟩
  · simpa using v 2 (fun s => decide (0 < s.nWriter)) (by decide +kernel)
  · simpa using v 2 (fun s => decide (s.client 0 = .sending)) (by decide +kernel)
  · simpa using v 2 (fun s => decide (Ev.submit 0 [0x13, 7, 0x03, 0x26, 0x01, 99, 0x25] .write false 0 ∈ s.hist)) (by decide +kernel)
  · by_cases hlt : exGiven.length ≤ m
    · exact h4 m hlt
    · have : m < 15 := by
        have : exGiven.length = 15 := by decide
        omega
      have all : ∀ m, m < 15 → 2 ≤ m → (run .perIteration init (exGiven.take m)).map (fun s => decide (s.port = .up)) = some true := by
        decide +kernel
      simpa using v m (fun s => decide (s.port = .up)) (all m this hm)

/-- The port is lost after the command was given. -/
def exGivenLost : List Label :=
  [.connect true, .submit [0x13, 7, 0x03, 0x26, 0x01, 99, 0x25] .write false 0, .take 0 (.client 0), .reader .fail] ++
    List.replicate 9 (.writer 0) ++ xGiveUp 0 ++ [.connect true]

/-- C114 is false for a port that is lost: `Write` has returned, as if all were well, but the command is never written,
not even after the port was opened again. -/
theorem C114_violated_lost : ∃ e : Exec (step .perIteration), FairConn e ∧ e.st 0 = init ∧ 0 < (e.st 2).nWriter ∧
    (e.st 2).client 0 = .sending ∧ (e.st 2).port = .up ∧ ∃ n, ∀ m, n ≤ m → (e.st m).crashed = none ∧ (e.st m).port = .up ∧
      (e.st m).client 0 = .done ∧ ∀ w x, Ev.cmd w 0 x ∉ (e.st m).hist := by
  obtain ⟨e, h1, h2, h3, h4⟩ := fair_of_run (ls := exGivenLost)
    (f := fun s => (s.crashed, s.port, s.client 0, s.hist.any (fun x => match x with | .cmd .. => true | _ => false)))
    (a := (none, .up, .done, false)) (by decide +kernel)
  have v : ∀ n (p : St → Bool), (run .perIteration init (exGivenLost.take n)).map p = some true → p (e.st n) = true := by
    intro n p hp
    cases hr : run .perIteration init (exGivenLost.take n) with
    | none => rw [hr] at hp; cases hp
    | some t => rw [hr] at hp; rw [h3 n t hr]; simpa using hp
  refine ⟨e, h1, h2, ?_, ?_, ?_, exGivenLost.length, fun m hm => ?_⟩
  · simpa using v 2 (fun s => decide (0 < s.nWriter)) (by decide +kernel)
  · simpa using v 2 (fun s => decide (s.client 0 = .sending)) (by decide +kernel)
  · simpa using v 2 (fun s => decide (s.port = .up)) (by decide +kernel)
  · have := h4 m hm
    simp only [Prod.mk.injEq, List.any_eq_false] at this
    refine ⟨this.1, this.2.1, this.2.2.1, fun w x hx => ?_⟩
    exact this.2.2.2 _ hx rfl

end Verif.Props
