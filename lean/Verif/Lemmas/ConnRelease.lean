import Verif.Lemmas.ConnLive

/-
Progress of the connection machine: a caller that listens to its channel can always be released.
-/

set_option linter.unusedSimpArgs false
set_option maxHeartbeats 4000000

namespace Verif.Lemmas.Conn

open Verif.Go Verif.Model Verif.Model.Conn Verif.Spec

theorem not_busy {lv : LoopVars} {s : St} (h : Reachable lv s) (hn : s.crashed = none)
    (hl : s.lock = none) : s.mapBusy = false := by
  rw [mapInv h hn]; simp [midOf, hl]

/-- A timeout worker that gets the lock closes its request and removes it from the table; nothing
else changes. -/
theorem timer_fires {lv : LoopVars} {s : St} {t u : Nat} (h : Reachable lv s) (hn : s.crashed = none)
    (hl : s.lock = none) (ht : s.timer t = .sleep u) :
    ∃ n s', run lv s (List.replicate n (.timer t)) = some s' ∧ s'.crashed = none ∧ s'.lock = none ∧
      u ∉ s'.inFlight ∧ s'.field u = false ∧ s'.client = s.client ∧ s'.got = s.got ∧ s'.req = s.req ∧
      s'.nReq = s.nReq ∧ (∀ v, v ≠ u → (v ∈ s'.inFlight ↔ v ∈ s.inFlight) ∧
        s'.closed v = s.closed v ∧ s'.field v = s.field v) := by
  have hb := not_busy h hn hl
  have hcl : closingOf s = none := by simp [closingOf, hl]
  by_cases hu : u ∈ s.inFlight
  · cases hf : s.field u with
    | false =>
      refine ⟨5, _, by
        simp [List.replicate, run, step, timerStep, ht, hn, hl, hb, hu, closeStep, hf]; rfl, ?_⟩
      simp [hn, hf, List.mem_filter]
      intro v hv _; exact hv
    | true =>
      have hc : s.closed u = false := by
        cases hc : s.closed u with
        | false => rfl
        | true => have := (chan h).open_closed u hf hc; rw [hcl] at this; cases this
      refine ⟨7, _, by
        simp [List.replicate, run, step, timerStep, ht, hn, hl, hb, hu, closeStep, hf, hc]; rfl, ?_⟩
      simp [hn, List.mem_filter]
      intro v hv; simp [hv, upd]
  · have hf : s.field u = false := by
      cases hf : s.field u with
      | false => rfl
      | true =>
        rcases (openInv h).timed t u (by simp [ht, tReq]) hf with h1 | ⟨a, h1⟩
        · exact absurd h1 hu
        · rw [hcl] at h1; cases h1
    refine ⟨3, _, by
      simp [List.replicate, run, step, timerStep, ht, hn, hl, hb, hu]; rfl, ?_⟩
    simp [hn, hf, hu]

/-- A writer that waits for the lock and gets it puts its request into the table, starts its timeout
worker and releases the lock (or crashes on a nil port). -/
theorem writer_starts {lv : LoopVars} {s : St} {w u : Nat} (h : Reachable lv s) (hn : s.crashed = none)
    (hl : s.lock = none) (hw : s.writer w = .lock u) (ht : (s.req u).timeout = true) :
    ∃ n s', run lv s (List.replicate n (.writer w)) = some s' ∧ (s'.crashed ≠ none ∨
      s'.crashed = none ∧ s'.lock = none ∧ s'.timer s.nTimer = .sleep u ∧ s'.client = s.client) := by
  have hb := not_busy h hn hl
  cases hp : s.port with
  | nil =>
    exact ⟨8, _, by simp [List.replicate, run, step, writerStep, hw, hn, hl, hb, ht, hp]; rfl,
      .inl (by simp [St.crash])⟩
  | closed =>
    exact ⟨9, _, by simp [List.replicate, run, step, writerStep, hw, hn, hl, hb, ht, hp]; rfl,
      .inr (by simp [hn])⟩
  | up =>
    exact ⟨9, _, by simp [List.replicate, run, step, writerStep, hw, hn, hl, hb, ht, hp]; rfl,
      .inr (by simp [hn])⟩

/-- Where a caller that listens or listened can be. -/
structure ClientInv (s : St) : Prop where
  received : ∀ u, s.client u = .received → (s.got u ≠ [] ∧ (s.req u).hasChan = true ∧ u < s.nReq)
  has : ∀ u, s.client u = .has → ((s.req u).hasChan = true ∧ u < s.nReq)
  handed : ∀ u, s.client u = .handed → ((s.req u).hasChan = true ∧ u < s.nReq)

theorem client_step {lv : LoopVars} {s s' : St} {l : Label} (hf : Fresh s) (hc : ChanInv s)
    (hi : ClientInv s) (h : step lv s l = some s') : ClientInv s' := by
  have f1 := hf.client
  have c1 := hc.noChan
  have c2 := hc.gotLen
  clear hf hc
  obtain ⟨k1, k2, k3⟩ := hi
  conn_step h
  all_goals constructor
  all_goals first
    | assumption
    | grind [upd, Req.hasChan]

theorem clientInv {lv : LoopVars} {s : St} (h : Reachable lv s) : ClientInv s :=
  reach_induct (P := ClientInv) (by constructor <;> simp [init])
    (fun _ _ _ hr hp hs => client_step (fresh hr) (chan hr) hp hs) s h

/-- The caller has its channel. -/
def Past (c : Client) : Prop := c = .has ∨ c = .received ∨ c = .done

theorem past_step {lv : LoopVars} {s s' : St} {l : Label} {u : Nat} (hu : u < s.nReq)
    (hp : Past (s.client u)) (h : step lv s l = some s') :
    Past (s'.client u) ∧ u < s'.nReq ∧ s'.req u = s.req u := by
  unfold Past at *
  conn_step h
  all_goals first
    | exact ⟨hp, hu, rfl⟩
    | grind [upd]

theorem past_run {lv : LoopVars} {ls : List Label} {s s' : St} {u : Nat} (hu : u < s.nReq)
    (hp : Past (s.client u)) (h : run lv s ls = some s') :
    Past (s'.client u) ∧ u < s'.nReq ∧ s'.req u = s.req u := by
  induction ls generalizing s with
  | nil => simp [run] at h; subst h; exact ⟨hp, hu, rfl⟩
  | cons l ls ih =>
    simp only [run] at h
    cases hs : step lv s l with
    | none => simp [hs] at h
    | some s1 =>
      simp [hs] at h
      obtain ⟨h1, h2, h3⟩ := past_step hu hp hs
      obtain ⟨g1, g2, g3⟩ := ih h2 h1 h
      exact ⟨g1, g2, g3.trans h3⟩

/-- Some continuation of `s` reaches `P` (or the process crashes on the way). -/
def CanReach (lv : LoopVars) (s : St) (P : St → Prop) : Prop :=
  ∃ ls s', run lv s ls = some s' ∧ (s'.crashed ≠ none ∨ P s')

theorem canReach_trans {lv : LoopVars} {s s1 : St} {ls : List Label} {P : St → Prop}
    (h : run lv s ls = some s1) (h2 : CanReach lv s1 P) : CanReach lv s P := by
  obtain ⟨ls2, s2, g1, g2⟩ := h2
  exact ⟨ls ++ ls2, s2, by rw [run_append, h]; exact g1, g2⟩

/-- From a listening caller whose request was closed. -/
theorem release_closed {lv : LoopVars} {s : St} {u : Nat} (hn : s.crashed = none)
    (hc : s.client u = .has) (hcl : s.closed u = true) : CanReach lv s (fun s' => s'.client u = .done) :=
  ⟨[.client u .seeClosed], _, by simp [run, step, hn, clientStep, hc, hcl]; rfl, .inr (by simp)⟩

theorem closed_of_field {lv : LoopVars} {s : St} {u : Nat} (h : Reachable lv s)
    (hc : s.client u = .has) (hf : s.field u = false) : s.closed u = true := by
  obtain ⟨h1, h2⟩ := (clientInv h).has u hc
  rcases (chan h).hasChan u h2 h1 with h3 | h3
  · rw [hf] at h3; cases h3
  · exact h3

theorem release_timer {lv : LoopVars} {s : St} {t u : Nat} (h : Reachable lv s) (hn : s.crashed = none)
    (hl : s.lock = none) (ht : s.timer t = .sleep u) (hc : s.client u = .has) :
    CanReach lv s (fun s' => s'.client u = .done) := by
  obtain ⟨n, s', h1, h2, h3, h4, h5, h6, -⟩ := timer_fires h hn hl ht
  have hc' : s'.client u = .has := by rw [h6]; exact hc
  exact canReach_trans h1 (release_closed h2 hc' (closed_of_field (reachable_run h h1) hc' h5))

theorem release_has {lv : LoopVars} {s : St} {u : Nat} (h : Reachable lv s) (hn : s.crashed = none)
    (hl : s.lock = none) (hc : s.client u = .has) (ht : (s.req u).timeout = true) :
    CanReach lv s (fun s' => s'.client u = .done) := by
  cases hf : s.field u with
  | false => exact release_closed hn hc (closed_of_field h hc hf)
  | true =>
    have hL := lockInv h
    rcases timedInv h u hf ht with h1 | ⟨w, h1⟩ | ⟨t, h1⟩
    · rw [hc] at h1; cases h1
    · have hw : s.writer w = .lock u := by
        have hcrit : wCrit (s.writer w) ≠ true := fun hx => by have := (hL.w w).1 hx; rw [hl] at this; cases this
        cases hx : s.writer w <;> simp_all [wPreT, wCrit]
      obtain ⟨n, s', g1, g2⟩ := writer_starts h hn hl hw ht
      rcases g2 with g2 | ⟨g2, g3, g4, g5⟩
      · exact ⟨_, s', g1, .inl g2⟩
      · exact canReach_trans g1 (release_timer (reachable_run h g1) g2 g3 g4 (by rw [g5]; exact hc))
    · have ht' : s.timer t = .sleep u := by
        have hcrit : tCrit (s.timer t) ≠ true := fun hx => by have := (hL.t t).1 hx; rw [hl] at this; cases this
        cases hx : s.timer t <;> simp_all [tLive, tCrit]
      exact release_timer h hn hl ht' hc

theorem release_past {lv : LoopVars} {s : St} {u : Nat} (h : Reachable lv s) (hn : s.crashed = none)
    (hl : s.lock = none) (hc : Past (s.client u)) (ht : (s.req u).timeout = true) :
    CanReach lv s (fun s' => s'.client u = .done) := by
  rcases hc with hc | hc | hc
  · exact release_has h hn hl hc ht
  · obtain ⟨h1, h2, h3⟩ := (clientInv h).received u hc
    cases hk : (s.req u).kind with
    | write => simp [Req.hasChan, hk] at h2
    | withTimeout =>
      have hs : step lv s (.client u .again) = some { s with client := upd s.client u .has } := by
        simp [step, hn, clientStep, hc, hk]
      exact canReach_trans (ls := [.client u .again]) (by simp [run, hs])
        (release_has (reachable_step h hs) hn hl (by simp) ht)
    | waitReport =>
      cases hg : s.got u with
      | nil => exact absurd hg h1
      | cons x xs =>
        obtain ⟨b, m⟩ := x
        cases m with
        | none =>
          exact ⟨[.client u .handle], _, by simp [run, step, hn, clientStep, hc, hk, hg]; rfl,
            .inl (by simp [St.crash])⟩
        | some m =>
          cases hm : m.data with
          | ach f =>
            exact ⟨[.client u .handle], _, by simp [run, step, hn, clientStep, hc, hk, hg, hm]; rfl,
              .inr (by simp)⟩
          | _ =>
            have hs : step lv s (.client u .handle) = some { s with client := upd s.client u .has } := by
              simp [step, hn, clientStep, hc, hk, hg, hm]
            exact canReach_trans (ls := [.client u .handle]) (by simp [run, hs])
              (release_has (reachable_step h hs) hn hl (by simp) ht)
  · exact ⟨[], s, rfl, .inr hc⟩

theorem release_any {lv : LoopVars} {s : St} {u : Nat} (h : Reachable lv s) (hn : s.crashed = none)
    (hu : u < s.nReq) (hc : Past (s.client u)) (ht : (s.req u).timeout = true) :
    CanReach lv s (fun s' => s'.client u = .done) := by
  cases hl : s.lock with
  | none => exact release_past h hn hl hc ht
  | some o =>
    obtain ⟨ls, s', -, h2, h3, -⟩ := release h hn hl
    obtain ⟨g1, g2, g3⟩ := past_run hu hc h2
    cases hn' : s'.crashed with
    | some p => exact ⟨ls, s', h2, .inl (by simp [hn'])⟩
    | none =>
      rcases h3 with h3 | h3
      · exact absurd hn' h3
      · exact canReach_trans h2 (release_past (reachable_run h h2) hn' h3 g1 (by rw [g3]; exact ht))

end Verif.Lemmas.Conn
