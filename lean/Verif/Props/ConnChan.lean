import Verif.Lemmas.ConnHist
import Verif.Lemmas.ConnTable
import Verif.Lemmas.ConnWire
import Verif.Lemmas.ConnRuns
import Verif.Props.Match

/-
C33, C34, C40: reply channels in every interleaving of callers, writers, reader, timeout workers and
resend goroutines.
-/

set_option linter.unusedSimpArgs false

namespace Verif.Props

open Verif.Go Verif.Model Verif.Model.Conn Verif.Spec Verif.Lemmas Verif.Lemmas.Conn

/-! ## C33 -/

/-- C33: in every execution (either loop-variable semantics) each request has been handed at most one
message, its channel has been closed at most once, and the process did not die from a close of a
closed channel, a close of a nil channel or a send on a closed channel. -/
theorem C33_at_most_one_reply {lv : LoopVars} {s : St} (h : Reachable lv s) (u : Nat) :
    s.hist.count (.deliver u) ≤ 1 ∧ s.hist.count (.closed u) ≤ 1 ∧ (s.got u).length ≤ 1 ∧
    s.crashed ≠ some .close ∧ s.crashed ≠ some .send := by
  have hc := chan h
  have hh := chanHist h u
  have hg : (s.got u).length ≤ 1 := by
    rcases hc.gotLen u with e | ⟨x, e⟩ <;> simp [e]
  have key : ∀ l : List Ev, l.count (.deliver u) = (chanEvs u l).count (.deliver u) ∧
      l.count (.closed u) = (chanEvs u l).count (.closed u) := by
    intro l
    induction l with
    | nil => simp [chanEvs]
    | cons e l ih =>
      cases e <;> simp [chanEvs, List.count_cons, ih.1, ih.2]
      · split <;> simp_all [List.count_cons]
      · split <;> simp_all [List.count_cons]
  rw [(key _).1, (key _).2, hh]
  refine ⟨?_, ?_, hg, hc.noCrash⟩
  · cases hcl : s.closed u <;> rcases hc.gotLen u with e | ⟨x, e⟩ <;> simp [e]
  · cases hcl : s.closed u <;> rcases hc.gotLen u with e | ⟨x, e⟩ <;> simp [e, List.count_cons]

/-- C33: nothing is delivered on a channel after it was closed (histories are newest first). -/
theorem C33_nothing_after_close {lv : LoopVars} {s : St} (h : Reachable lv s) (u : Nat)
    (later earlier : List Ev) (hs : s.hist = later ++ .deliver u :: earlier) :
    .closed u ∉ earlier ∧ .deliver u ∉ earlier := by
  have hh := chanHist h u
  have happ : ∀ a b : List Ev, chanEvs u (a ++ b) = chanEvs u a ++ chanEvs u b := by
    intro a b
    induction a with
    | nil => rfl
    | cons e a ih => cases e <;> simp [chanEvs, ih] <;> split <;> simp_all
  have hmem : ∀ l : List Ev, (.closed u ∈ l → .closed u ∈ chanEvs u l) ∧
      (.deliver u ∈ l → .deliver u ∈ chanEvs u l) := by
    intro l
    induction l with
    | nil => simp
    | cons e l ih => cases e <;> grind [chanEvs]
  rw [hs, happ] at hh
  simp only [chanEvs, if_true] at hh
  have hnil : chanEvs u earlier = [] := by
    have hl := congrArg List.length hh
    have hd := (chan h).gotLen u
    have : (chanEvs u later ++ Ev.deliver u :: chanEvs u earlier).reverse =
      ((if s.closed u = true then [Ev.closed u] else []) ++ (s.got u).map fun _ => Ev.deliver u).reverse :=
      congrArg _ hh
    rcases hd with e | ⟨x, e⟩
    · rw [e] at hh
      cases hcl : s.closed u <;> simp [hcl] at hh
      have := congrArg (fun l => Ev.deliver u ∈ l) hh
      simp at this
    · rw [e] at this
      cases hcl : s.closed u <;> simp [hcl] at this
      all_goals
        cases hr : (chanEvs u earlier).reverse with
        | nil => simpa using hr
        | cons a as =>
          rw [hr] at this
          simp at this
          try
            have h2 := congrArg (fun l => Ev.deliver u ∈ l) this.2
            simp at h2
  exact ⟨fun hm => by simpa [hnil] using (hmem _).1 hm, fun hm => by simpa [hnil] using (hmem _).2 hm⟩

/-- A full exchange: request submitted, transmitted, acknowledged, answered. -/
def exExchange : List Label :=
  [.connect true, .submit xReq .waitReport true 0x03] ++ xSend 0 0 ++ [.client 0 .readField] ++
  xAck 0 0 ++ xFrame ++ xDeliver 0 ++ [.reader .stop, .reader .go]

example : (run .perLoop init exExchange).map (fun s =>
    (s.hist.count (.deliver 0), s.hist.count (.closed 0), s.inFlight, s.client 0, s.crashed)) =
    some (1, 1, [], .received, none) := by decide +kernel

/-! ## C34 -/

/-- C34: in every execution, each message handed to the caller of request `u` was decoded from a
received buffer that starts with a complete frame with a valid checksum and agrees with the data that
caller submitted: function, node, command class and expected report. -/
theorem C34_reply_matches_request {lv : LoopVars} {s : St} (h : Reachable lv s) (u : Nat)
    (buf : Slice) (msg : Option Message) (hg : (buf, msg) ∈ s.got u) :
    ∃ data kind to er, .submit u data kind to er ∈ s.hist ∧
      (∃ body f tail r, IsFrame body f ∧ buf.vis = zeroed f ++ tail ∧
        newMessage buf = .ok r ∧ msg = r.toOption) ∧
      (Agrees (reqFunction data) buf.vis[3]? ∨
        (reqFunction data = 0x13 ∧ buf.vis[3]? = some 0x04)) ∧
      (reqFunction data ≠ 0x41 → Agrees (reqNode data) buf.vis[5]? ∧
        Agrees (reqClass data) buf.vis[7]? ∧
        (kind = .waitReport → Agrees er buf.vis[8]?)) := by
  obtain ⟨hd, hm⟩ := (dataInv h).got u (buf, msg) hg
  have hu : u < s.nReq := by
    rcases Nat.lt_or_ge u s.nReq with hu | hn
    · exact hu
    · rw [((chan h).fresh u hn).2] at hg
      cases hg
  obtain ⟨data, kind, to, er, hsub⟩ := (contents h).all u hu
  obtain ⟨-, hp, -, -⟩ := (contents h).submit u data kind to er hsub
  have hs := C29_sound_buffer data _ _ _ hp hm
  refine ⟨data, kind, to, er, hsub, hd, hs.1, fun hne => ?_⟩
  obtain ⟨a, b, c⟩ := hs.2 hne
  exact ⟨a, b, fun hk => by simpa [hk] using c⟩

example : (run .perLoop init exExchange).map (fun s => (s.got 0).map (fun x => x.1.vis)) =
    some [[0x01, 0x09, 0x00, 0x04, 0x00, 0x02, 0x03, 0x25, 0x03, 0xFF, 0x00]] := by decide +kernel

/-! ## C40 -/

/-- The set of requests a frame completes: when the reader has finished matching a frame, of the
requests in the table when it took the lock exactly those that match the frame have left the table,
and the channels of those are closed; all others are still there. (Missing for C40: at most one; see
`C40_violated`.) -/
theorem C40_completes_matching_partial {lv : LoopVars} {s : St} (h : Reachable lv s) (c : Scope)
    (hr : s.reader = .frameUnlock c) (hs : c.todo = []) :
    (∀ v, v ∈ s.inFlight ↔ v ∈ c.orig ∧ (s.req v).pkg.match_ c.buf.vis = .ok false) ∧
    (∀ v ∈ c.orig, (s.req v).pkg.match_ c.buf.vis = .ok true ∨
      (s.req v).pkg.match_ c.buf.vis = .ok false) ∧
    (∀ v ∈ c.orig, (s.req v).pkg.match_ c.buf.vis = .ok true → (s.req v).hasChan = true →
      s.closed v = true ∧ s.field v = false) := by
  have hf := frameInv h
  have hsc : rScope s.reader = some c := by rw [hr]; rfl
  have hcu : rCur s.reader = none := by rw [hr]; rfl
  have hv : ∀ v ∈ c.orig, _ := fun v hv => hf.visited c hsc v hv (by simp [hs]) (by simp [hcu])
  refine ⟨fun v => ⟨fun hm => ?_, fun ⟨ho, hm⟩ => ?_⟩, fun v ho => ?_, fun v ho hm hch => ?_⟩
  · have ho := hf.sub c hsc v hm
    refine ⟨ho, ?_⟩
    rcases hv v ho with ⟨-, h2, -⟩ | ⟨h1, -⟩
    · exact absurd hm h2
    · exact h1
  · rcases hv v ho with ⟨h1, -⟩ | ⟨-, h2⟩
    · rw [hm] at h1; cases h1
    · exact h2
  · rcases hv v ho with ⟨h1, -⟩ | ⟨h1, -⟩
    · exact .inl h1
    · exact .inr h1
  · rcases hv v ho with ⟨-, -, h3⟩ | ⟨h1, -⟩
    · refine ⟨?_, h3⟩
      rcases (chan h).hasChan v (hf.origRange c hsc v ho) hch with h4 | h4
      · rw [h3] at h4; cases h4
      · exact h4
    · rw [hm] at h1; cases h1

/-- Two callers wait for the report of the same switch; both requests are transmitted and
acknowledged; one report arrives. -/
def exTwo : List Label :=
  [.connect true, .submit xReq .waitReport true 0x03, .submit xReq .waitReport true 0x03] ++
  xSend 0 0 ++ [.client 0 .readField] ++ xAck 0 0 ++
  xSend 0 1 ++ [.client 1 .readField] ++
  (xRead [0x06] ++ xMiss 0 ++ xHit 1 0 ++
    [.reader .go, .reader .go, .reader .stop, .reader .go, .reader .go, .writer 0, .writer 0]) ++
  xFrame ++ xDeliver 0 ++ xDeliver 1 ++ [.reader .stop, .reader .go]

/-- C40 is false: one received frame completes two requests. -/
theorem C40_violated : ∃ s, Reachable .perIteration s ∧
    s.hist.countP (fun e => match e with | .frame _ _ => true | _ => false) = 1 ∧
    Ev.deliver 0 ∈ s.hist ∧ Ev.deliver 1 ∈ s.hist ∧ s.closed 0 = true ∧ s.closed 1 = true := by
  have key : (run .perIteration init exTwo).map (fun s =>
      (s.hist.countP (fun e => match e with | .frame _ _ => true | _ => false),
        s.hist.contains (Ev.deliver 0), s.hist.contains (Ev.deliver 1), s.closed 0, s.closed 1)) =
      some (1, true, true, true, true) := by decide +kernel
  cases hr : run .perIteration init exTwo with
  | none => rw [hr] at key; cases key
  | some s =>
    rw [hr] at key
    simp only [Option.map_some, Option.some.injEq, Prod.mk.injEq] at key
    obtain ⟨k1, k2, k3, k4, k5⟩ := key
    exact ⟨s, ⟨_, hr⟩, k1, by simpa using k2, by simpa using k3, k4, k5⟩

example : ∃ s, Reachable .perLoop s ∧ ∃ c, s.reader = .frameUnlock c ∧ c.todo = [] ∧
    c.orig = [0, 1] := by
  have key : (run .perLoop init (exTwo.take (exTwo.length - 1))).map (fun s =>
      match s.reader with | .frameUnlock c => (c.todo, c.orig) | _ => ([5], [])) =
      some ([], [0, 1]) := by decide +kernel
  cases hr : run .perLoop init (exTwo.take (exTwo.length - 1)) with
  | none => rw [hr] at key; cases key
  | some s =>
    rw [hr] at key
    refine ⟨s, ⟨_, hr⟩, ?_⟩
    cases hx : s.reader <;> simp [hx] at key
    exact ⟨_, rfl, key.1, key.2⟩

end Verif.Props
