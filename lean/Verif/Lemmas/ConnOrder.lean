import Verif.Lemmas.ConnRelease
import Verif.Props.ConnWire

/-
The order of transmissions, and the way of a request to the port.
-/

set_option linter.unusedSimpArgs false
set_option maxHeartbeats 4000000

namespace Verif.Lemmas.Conn

open Verif.Go Verif.Model Verif.Model.Conn Verif.Spec Verif.Props

/-! ### Order -/

/-- Resend goroutines offer no more copies than there were resends. -/
theorem offered {lv : LoopVars} {s : St} {u : Nat} (h : Reachable lv s) :
    sHold u s.resend s.nResend ≤ nEv (isResend u) s.hist := by
  refine reach_induct (lv := lv) (P := fun s => sHold u s.resend s.nResend ≤ nEv (isResend u) s.hist)
    (by simp [init, nEv, sHold, cnt]) (fun s s' l hr hp hs => ?_) s h
  have f3 := (fresh hr).resend
  clear hr
  conn_step hs
  all_goals first
    | assumption
    | grind [upd, nEv_cons, sPend, isResend, b2n]

theorem cnt_pos {p : Nat → Bool} : ∀ {n : Nat}, 0 < cnt p n → ∃ i, i < n ∧ p i = true
  | 0, h => by simp [cnt] at h
  | n + 1, h => by
    simp only [cnt] at h
    by_cases hp : p n = true
    · exact ⟨n, by omega, hp⟩
    · have hf : p n = false := by simpa using hp
      rw [hf] at h
      obtain ⟨i, h1, h2⟩ := cnt_pos (p := p) (n := n) (by simpa using h)
      exact ⟨i, by omega, h2⟩

/-- A request whose caller got rid of it was handed to the port or is held by a writer. -/
theorem handed_over {lv : LoopVars} {s : St} {u : Nat} (h : Reachable lv s) (hu : u < s.nReq)
    (hc : s.client u ≠ .sending) : (∃ e ∈ s.hist, evSent u e = true) ∨ ∃ w, w < s.nWriter ∧ wPend (s.writer w) = some u := by
  obtain ⟨h1, h2⟩ := wire (u := u) h
  have h3 := offered (u := u) h
  rw [if_neg hc] at h1
  rw [if_pos hu] at h2
  by_cases hs : 0 < nEv (isSent u) s.hist
  · left
    unfold nEv at hs
    obtain ⟨e, he, hp⟩ := List.countP_pos_iff.1 hs
    exact ⟨e, he, by cases e <;> simp_all [isSent, evSent]⟩
  · right
    have hw : 0 < wHold u s.writer s.nWriter := by omega
    obtain ⟨i, h4, h5⟩ := cnt_pos hw
    exact ⟨i, h4, by simpa using h5⟩

/-- Request `u` was handed to the port. -/
def sentB (u : Nat) (h : List Ev) : Bool := h.any (evSent u)

theorem sentB_cons (u : Nat) (e : Ev) (h : List Ev) : sentB u (e :: h) = (evSent u e || sentB u h) := rfl

theorem sentB_iff (u : Nat) (h : List Ev) : sentB u h = true ↔ ∃ e ∈ h, evSent u e = true := by
  unfold sentB; rw [List.any_eq_true]

/-- Every transmission of `v` comes after one of `u`. -/
def After (u v : Nat) : List Ev → Prop
  | [] => True
  | e :: h => After u v h ∧ ((∃ w m, e = .cmd w v m) → sentB u h = true)

theorem after_split {u v : Nat} : ∀ {h later earlier : List Ev} {w : Nat} {m : List UInt8}, After u v h →
    h = later ++ .cmd w v m :: earlier → ∃ e ∈ earlier, evSent u e = true
  | h, [], earlier, w, m, ha, e => by subst e; exact (sentB_iff _ _).1 (ha.2 ⟨w, m, rfl⟩)
  | h, x :: later, earlier, w, m, ha, e => by subst e; exact after_split ha.1 rfl

/-- `u` before `v`. -/
structure OrderInv (u v : Nat) (s : St) : Prop where
  after : s.nWriter ≤ 1 → After u v s.hist
  sent : sentB u s.hist = true ∨ ∃ w, w < s.nWriter ∧ wPend (s.writer w) = some u

theorem order_step {lv : LoopVars} {s s' : St} {l : Label} {u v : Nat} (huv : u ≠ v) (hf : Fresh s)
    (hi : OrderInv u v s) (h : step lv s l = some s') : OrderInv u v s' := by
  have f1 := hf.writer
  clear hf
  obtain ⟨k1, k2⟩ := hi
  conn_step h
  all_goals constructor
  all_goals first
    | assumption
    | grind [upd, wPend, After, evSent, sentB_cons]
    | (rcases k2 with k2 | ⟨w, h1, h2⟩
       · exact .inl k2
       · exact .inr ⟨w, by simp only; omega, by simp [upd, Nat.ne_of_lt h1, h2]⟩)

theorem order_run {lv : LoopVars} {u v : Nat} (huv : u ≠ v) : ∀ {ls : List Label} {s s' : St}, Reachable lv s →
    OrderInv u v s → run lv s ls = some s' → OrderInv u v s'
  | [], s, s', _, hi, h => by cases h; exact hi
  | l :: ls, s, s', hr, hi, h => by
    simp only [run, Option.bind_eq_some_iff] at h
    obtain ⟨s1, h1, h2⟩ := h
    exact order_run huv (reachable_step hr h1) (order_step huv (fresh hr) hi h1) h2

/-! ### The way to the port -/

/-- What the release of the lock leaves alone. -/
structure Kept (u : Nat) (s s' : St) : Prop where
  port : s'.port = s.port
  client : s.client u = .sending → s'.client u = .sending
  nWriter : s'.nWriter = s.nWriter
  nReq : s'.nReq = s.nReq

theorem Kept.trans {u : Nat} {a b c : St} (h1 : Kept u a b) (h2 : Kept u b c) : Kept u a c :=
  ⟨h2.port.trans h1.port, fun h => h2.client (h1.client h), h2.nWriter.trans h1.nWriter, h2.nReq.trans h1.nReq⟩

theorem owned_keeps {lv : LoopVars} {s s' : St} {l : Label} {o : Owner} {u : Nat} (h : LockInv s) (ho : s.lock = some o)
    (hl : ownedBy o l = true) (hs : step lv s l = some s') : Kept u s s' := by
  obtain ⟨k1, k2, k3, k4⟩ := h
  conn_step hs
  all_goals first
    | (simp [ownedBy] at hl; done)
    | exact ⟨rfl, fun h => h, rfl, rfl⟩
    | (exfalso
       rename_i hr
       rw [hr] at k3 k4
       cases o <;> simp_all [ownedBy, sCrit, fCrit]
       done)
    | (constructor <;> grind [ownedBy, sCrit, fCrit, upd])

theorem release_keeps {lv : LoopVars} {s : St} {o : Owner} (u : Nat) (h : Reachable lv s) (hn : s.crashed = none)
    (ho : s.lock = some o) : ∃ ls s', run lv s ls = some s' ∧ (s'.crashed ≠ none ∨ s'.lock = none) ∧ Kept u s s' := by
  generalize hk : rank s = k
  induction k using Nat.strongRecOn generalizing s with
  | _ k ih =>
    obtain ⟨l, s1, h1, h2, h3⟩ := progress (lv := lv) (lockInv h) hn ho
    have hp := owned_keeps (u := u) (lockInv h) ho h1 h2
    by_cases hb : s1.crashed ≠ none ∨ s1.lock = none
    · exact ⟨[l], s1, by simp [run, h2], hb, hp⟩
    · have hb1 : s1.crashed = none := by
        cases hcr : s1.crashed with
        | none => rfl
        | some p => exact absurd (.inl (by simp [hcr])) hb
      rcases h3 with h3 | h3 | ⟨h3, h4⟩
      · exact absurd (.inl h3) hb
      · exact absurd (.inr h3) hb
      · obtain ⟨ls, s2, g2, g3, g4⟩ := ih (rank s1) (hk ▸ h4) (reachable_step h h2) hb1 (h3.trans ho) rfl
        exact ⟨l :: ls, s2, by simp [run, h2, g2], g3, hp.trans g4⟩

/-- A writer that waits for the free lock hands its request to the port. -/
theorem writer_sends {lv : LoopVars} {s : St} {w v : Nat} (u : Nat) (h : Reachable lv s) (hn : s.crashed = none)
    (hl : s.lock = none) (hp : s.port = .up) (hw : s.writer w = .lock v) :
    ∃ s', run lv s (List.replicate 9 (.writer w)) = some s' ∧ s'.crashed = none ∧ s'.lock = none ∧
      s'.writer w = .await v ∧ (∃ m, .cmd w v m ∈ s'.hist) ∧ s'.result w = .waiting v ∧ Kept u s s' := by
  have hb := not_busy h hn hl
  cases ht : (s.req v).timeout with
  | true =>
    refine ⟨_, by simp [List.replicate, run, step, writerStep, hw, hn, hl, hb, ht, hp]; rfl, ?_⟩
    refine ⟨by simp [hn], rfl, by simp, ⟨(s.req v).pkg.message, by simp⟩, by simp, by simp [hp], ?_, rfl, rfl⟩
    simp
  | false =>
    refine ⟨_, by simp [List.replicate, run, step, writerStep, hw, hn, hl, hb, ht, hp]; rfl, ?_⟩
    refine ⟨by simp [hn], rfl, by simp, ⟨(s.req v).pkg.message, by simp⟩, by simp, by simp [hp], ?_, rfl, rfl⟩
    simp

/-- A request at the port. -/
def AtPort (u : Nat) (s : St) : Prop := ∃ w m, .cmd w u m ∈ s.hist

/-- With the lock free, an idle writer takes the request and hands it to the port. -/
theorem idle_sends {lv : LoopVars} {s : St} {w u : Nat} (h : Reachable lv s) (hn : s.crashed = none)
    (hl : s.lock = none) (hp : s.port = .up) (hw : s.writer w = .idle) (hc : s.client u = .sending) :
    ∃ ls s', run lv s ls = some s' ∧ AtPort u s' := by
  have h1 : ∃ s1, step lv s (.take w (.client u)) = some s1 ∧ s1.writer w = .lock u ∧ s1.lock = none ∧
      s1.crashed = none ∧ s1.port = .up := by
    refine ⟨_, by simp only [step, hn, Option.isSome_none, Bool.false_eq_true, if_false, takeStep, hw, if_true, hc]; rfl, ?_⟩
    simp [hl, hn, hp]
  obtain ⟨s1, e1, e2, e3, e4, e5⟩ := h1
  obtain ⟨s2, g1, -, -, -, ⟨m, hm⟩, -⟩ := writer_sends u (reachable_step h e1) e4 e3 e5 e2
  exact ⟨.take w (.client u) :: List.replicate 9 (.writer w), s2, by simp only [run, e1, Option.bind_some]; exact g1, w, m, hm⟩

/-- Started writers stay. -/
theorem writer_present {lv : LoopVars} {s : St} (h : Reachable lv s) : ∀ w, w < s.nWriter → s.writer w ≠ .absent := by
  refine reach_induct (lv := lv) (P := fun s => ∀ w, w < s.nWriter → s.writer w ≠ .absent)
    (by simp [init]) (fun s s' l hr hp hs => ?_) s h
  clear hr
  conn_step hs
  all_goals first
    | assumption
    | grind [upd]

/-- A waiting writer goes on after the second. -/
theorem await_idle {lv : LoopVars} {s : St} {w v : Nat} (u : Nat) (h : Reachable lv s) (hn : s.crashed = none)
    (hl : s.lock = none) (hw : s.writer w = .await v) :
    ∃ ls s', run lv s ls = some s' ∧ s'.crashed = none ∧ s'.lock = none ∧ s'.writer w = .idle ∧ Kept u s s' := by
  rcases (trOk (w := w) h).after v (by rw [hw]; rfl) with ⟨hr, -⟩ | ⟨hr, -⟩
  · refine ⟨[.resultTimeout w, .writer w, .writer w], _, by
      simp [run, step, writerStep, resultTimeoutStep, hw, hn, hl, hr]; rfl, ?_⟩
    refine ⟨by simp [hn], by simp [hl], by simp, by simp, ?_, by simp, by simp⟩
    simp
  · refine ⟨[.writer w, .writer w], _, by
      simp [run, step, writerStep, resultTimeoutStep, hw, hn, hl, hr]; rfl, ?_⟩
    refine ⟨by simp [hn], by simp [hl], by simp, by simp, ?_, by simp, by simp⟩
    simp

/-- A writer with the lock free can become idle, having sent what it held. -/
theorem becomes_idle {lv : LoopVars} {s : St} {w : Nat} (u : Nat) (h : Reachable lv s) (hn : s.crashed = none)
    (hl : s.lock = none) (hp : s.port = .up) (hw : w < s.nWriter) :
    ∃ ls s', run lv s ls = some s' ∧ s'.crashed = none ∧ s'.lock = none ∧ s'.writer w = .idle ∧ Kept u s s' := by
  have hc : wCrit (s.writer w) ≠ true := by
    intro h1
    have := ((lockInv h).w w).1 h1
    rw [hl] at this; cases this
  cases hx : s.writer w with
  | absent => exact absurd hx (writer_present h w hw)
  | idle => exact ⟨[], s, rfl, hn, hl, hx, rfl, id, rfl, rfl⟩
  | lock v =>
    obtain ⟨s1, g1, g2, g3, g4, -, -, g5⟩ := writer_sends u h hn hl hp hx
    obtain ⟨ls, s2, k1, k2, k3, k4, k5⟩ := await_idle u (reachable_run h g1) g2 g3 g4
    exact ⟨_ ++ ls, s2, by rw [run_append, g1]; exact k1, k2, k3, k4, g5.trans k5⟩
  | await v => exact await_idle u h hn hl hx
  | reset v =>
    refine ⟨[.writer w], _, by simp [run, step, writerStep, hx, hn, hl]; rfl, ?_⟩
    refine ⟨by simp [hn], by simp [hl], by simp, by simp, ?_, by simp, by simp⟩
    simp
  | _ => exact absurd (by rw [hx]; rfl) hc

/-- A request on its way can reach the port, unless the process crashes. -/
theorem reaches_port {lv : LoopVars} {s : St} {u : Nat} (h : Reachable lv s) (hn : s.crashed = none)
    (hp : s.port = .up) (hw : 0 < s.nWriter) (hc : s.client u = .sending) : CanReach lv s (AtPort u) := by
  have free : ∀ t, Reachable lv t → t.crashed = none → t.lock = none → t.port = .up → 0 < t.nWriter →
      t.client u = .sending → CanReach lv t (AtPort u) := by
    intro t ht htn htl htp htw htc
    obtain ⟨ls, t1, g1, g2, g3, g4, g5⟩ := becomes_idle u ht htn htl htp htw
    obtain ⟨ls2, t2, k1, k2⟩ := idle_sends (reachable_run ht g1) g2 g3 (g5.port.trans htp) g4 (g5.client htc)
    exact ⟨ls ++ ls2, t2, by rw [run_append, g1]; exact k1, .inr k2⟩
  cases hl : s.lock with
  | none => exact free s h hn hl hp hw hc
  | some o =>
    obtain ⟨ls, s1, g1, g2, g3⟩ := release_keeps u h hn hl
    by_cases hn1 : s1.crashed = none
    · have hl1 : s1.lock = none := g2.resolve_left (fun hx => hx hn1)
      exact canReach_trans g1 (free s1 (reachable_run h g1) hn1 hl1 (g3.port.trans hp) (g3.nWriter ▸ hw) (g3.client hc))
    · exact ⟨ls, s1, g1, .inl hn1⟩

end Verif.Lemmas.Conn
