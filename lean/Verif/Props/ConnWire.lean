import Verif.Lemmas.ConnAck
import Verif.Lemmas.ConnRuns
import Verif.Props.Framing

/-
C36, C42, C68: what is handed to the port, in every interleaving of callers, writers, reader, timeout
workers and resend goroutines.
-/

set_option linter.unusedSimpArgs false

namespace Verif.Props

open Verif.Go Verif.Model Verif.Model.Conn Verif.Spec Verif.Lemmas Verif.Lemmas.Conn

/-! ## Specification -/

/-- `Write` was called with the message of request `v`. -/
def evSent (v : Nat) : Ev → Bool
  | .cmd _ u _ => u == v
  | .lost _ u => u == v
  | _ => false

/-- The wait for the result of request `v` ended: a control byte arrived, or one second passed. -/
def evEnded (v : Nat) : Ev → Bool
  | .result _ u _ => u == v
  | .sendTimeout _ u => u == v
  | _ => false

/-! ## C36 -/

theorem paired_split {t a b : List Tr} {u : Nat} (h : Paired t) (ht : t = a ++ .start u :: b) :
    Paired b ∨ PairedTimeout u b := by
  induction h generalizing a with
  | nil => simp at ht
  | @answered v r hr ih =>
    match a, ht with
    | [], ht => simp at ht
    | [x], ht => simp at ht; obtain ⟨-, rfl, rfl⟩ := ht; exact .inl hr
    | x :: y :: a, ht => simp at ht; exact ih ht.2.2
  | @gaveUp v r hr ih =>
    match a, ht with
    | [], ht => simp at ht
    | [x], ht => simp at ht; obtain ⟨-, rfl, rfl⟩ := ht; exact .inl hr
    | x :: y :: a, ht => simp at ht; exact ih ht.2.2
  | @early v r hr ih =>
    match a, ht with
    | [], ht => simp at ht; obtain ⟨rfl, rfl⟩ := ht; exact .inr ⟨r, rfl, hr⟩
    | [x], ht => simp at ht
    | x :: y :: a, ht => simp at ht; exact ih ht.2.2

/-- The link events of a writer in a reachable state. -/
theorem trace_shape {lv : LoopVars} {s : St} (h : Reachable lv s) (w : Nat) :
    Paired (trace w s.hist) ∨ (∃ u, PairedTimeout u (trace w s.hist)) ∨
    (∃ u, PairedStart u (trace w s.hist)) := by
  have ht := trOk (w := w) h
  cases h1 : wAtWrite (s.writer w) with
  | some u => exact (ht.write u h1).elim (fun h2 => .inl h2.2) (fun h2 => .inr (.inl ⟨u, h2.2⟩))
  | none =>
    cases h2 : wAfter (s.writer w) with
    | some u => exact (ht.after u h2).elim (fun h3 => .inr (.inr ⟨u, h3.2⟩)) (fun h3 => .inl h3.2)
    | none => exact .inl (ht.early h1 h2).2

theorem trace_split {lv : LoopVars} {s : St} (h : Reachable lv s) (w u : Nat) (a b : List Tr)
    (ht : trace w s.hist = a ++ .start u :: b) : Paired b ∨ PairedTimeout u b := by
  rcases trace_shape h w with h1 | ⟨v, p, h1, h2⟩ | ⟨v, p, h1, h2⟩
  · exact paired_split h1 ht
  · rw [h1] at ht
    match a, ht with
    | [], ht => simp at ht
    | x :: a, ht => simp at ht; exact paired_split h2 ht.2
  · rw [h1] at ht
    match a, ht with
    | [], ht => simp at ht; obtain ⟨rfl, rfl⟩ := ht; exact .inl h2
    | x :: a, ht => simp at ht; exact paired_split h2 ht.2

def trSent (v : Nat) : Tr → Bool
  | .start u => u == v
  | _ => false

def trEnded (v : Nat) : Tr → Bool
  | .answer u => u == v
  | .timeout u => u == v
  | _ => false

theorem paired_count {t : List Tr} (h : Paired t) (v : Nat) :
    t.countP (trSent v) = t.countP (trEnded v) := by
  induction h <;> simp_all [List.countP_cons, trSent, trEnded]

theorem trace_ended (w v : Nat) (h : List Ev) :
    (trace w h).countP (trEnded v) ≤ h.countP (evEnded v) := by
  induction h with
  | nil => simp [trace]
  | cons e h ih =>
    rw [trace_cons]
    cases e <;> simp [trOf, evEnded, List.countP_cons] <;> first | exact ih | skip
    all_goals
      split
      · rename_i heq; split at heq
        · cases heq; simp [List.countP_cons, trEnded]; omega
        · cases heq
      · omega

theorem trace_sent {w : Nat} {h : List Ev} (v : Nat)
    (hw : ∀ e ∈ h, ∀ w' u, (∃ m, e = .cmd w' u m) ∨ e = .lost w' u → w' = w) :
    h.countP (evSent v) = (trace w h).countP (trSent v) := by
  induction h with
  | nil => simp [trace]
  | cons e h ih =>
    have ih := ih (fun e he => hw e (List.mem_cons_of_mem _ he))
    have he := hw e List.mem_cons_self
    rw [trace_cons]
    cases e with
    | cmd w' u m =>
      have : w' = w := he w' u (.inl ⟨m, rfl⟩)
      simp [trOf, this, evSent, List.countP_cons, trSent, ih]
    | lost w' u =>
      have : w' = w := he w' u (.inr rfl)
      simp [trOf, this, evSent, List.countP_cons, trSent, ih]
    | result w' u b => by_cases hw' : w' = w <;> simp [trOf, hw', evSent, List.countP_cons, trSent, ih]
    | sendTimeout w' u => by_cases hw' : w' = w <;> simp [trOf, hw', evSent, List.countP_cons, trSent, ih]
    | _ => simp [trOf, evSent, List.countP_cons, ih]

/-- C36 until the first reconnect (`nWriter` counts the successful `Connect` calls): whenever a
command is written to the port, for every request `v` each earlier transmission of `v` already had its
result: a control byte or the one-second timeout. (Missing: after a reconnect, see
`C36_violated_after_reconnect`.) -/
theorem C36_one_at_a_time_partial {lv : LoopVars} {s : St} (h : Reachable lv s) (hn : s.nWriter ≤ 1)
    (later earlier : List Ev) (w u : Nat) (m : List UInt8)
    (hs : s.hist = later ++ .cmd w u m :: earlier) (v : Nat) :
    earlier.countP (evSent v) ≤ earlier.countP (evEnded v) := by
  have hc := contents h
  have hw : ∀ e ∈ s.hist, ∀ w' u', (∃ m, e = .cmd w' u' m) ∨ e = .lost w' u' → w' = w := by
    have h0 : w < s.nWriter := (hc.cmd w u m (by rw [hs]; simp)).2.2
    rintro e he w' u' (⟨m', rfl⟩ | rfl)
    · have := (hc.cmd _ _ _ he).2.2; omega
    · have := (hc.lost _ _ he).2; omega
  have ht : trace w s.hist = trace w later ++ .start u :: trace w earlier := by
    rw [hs]; simp [trace, trOf]
  rw [trace_sent v (fun e he => hw e (by rw [hs]; simp [he]))]
  refine Nat.le_trans ?_ (trace_ended w v earlier)
  rcases trace_split h w u _ _ ht with hp | ⟨p, hp, hp'⟩
  · exact Nat.le_of_eq (paired_count hp v)
  · rw [hp]
    have := paired_count hp' v
    simp [List.countP_cons, trSent, trEnded, this]

/-- The same for each writer separately, also after reconnects: between two calls of `Write` by one
writer there is a result of its own. -/
theorem C36_each_writer {lv : LoopVars} {s : St} (h : Reachable lv s)
    (later earlier : List Ev) (w u : Nat) (m : List UInt8)
    (hs : s.hist = later ++ .cmd w u m :: earlier) (v : Nat) :
    (trace w earlier).countP (trSent v) ≤ (trace w earlier).countP (trEnded v) := by
  have ht : trace w s.hist = trace w later ++ .start u :: trace w earlier := by
    rw [hs]; simp [trace, trOf]
  rcases trace_split h w u _ _ ht with hp | ⟨p, hp, hp'⟩
  · exact Nat.le_of_eq (paired_count hp v)
  · rw [hp]
    have := paired_count hp' v
    simp [List.countP_cons, trSent, trEnded, this]

/-- Two requests one after the other on one connection. -/
def exSeq : List Label :=
  [.connect true, .submit xReq .write false 0, .submit [0x02] .write false 0] ++
  xSend 0 0 ++ xAck 0 0 ++ xSend 0 1

example : (run .perLoop init exSeq).map (fun s => (s.nWriter, s.hist)) =
    some (1, [.cmd 0 1 [0x01, 0x03, 0x00, 0x02, 0xFE], .result 0 0 0x06, .visit 0 0,
      .cmd 0 0 [0x01, 0x08, 0x00, 0x13, 0x02, 0x03, 0x25, 0x02, 0x25, 0xE7],
      .submit 1 [0x02] .write false 0, .submit 0 xReq .write false 0]) := by decide +kernel

/-- The first command is unanswered when the port fails; after the reconnect the second writer sends
a second command at once. -/
def exReconnect : List Label :=
  [.connect true, .submit xReq .write false 0, .submit [0x02] .write false 0] ++
  xSend 0 0 ++ [.reader .fail, .connect true] ++ xSend 1 1

/-- C36 is false after a reconnect: the writer of the old connection keeps running, so a command is
written while the previous one has neither an answer nor a timeout. -/
theorem C36_violated_after_reconnect : ∃ s later earlier w u m,
    Reachable .perIteration s ∧ s.hist = later ++ Ev.cmd w u m :: earlier ∧
    ∃ v, earlier.countP (evEnded v) < earlier.countP (evSent v) := by
  have key : (run .perIteration init exReconnect).map (fun s => s.hist) =
    some ([] ++ Ev.cmd 1 1 [0x01, 0x03, 0x00, 0x02, 0xFE] ::
      [.cmd 0 0 [0x01, 0x08, 0x00, 0x13, 0x02, 0x03, 0x25, 0x02, 0x25, 0xE7],
      .submit 1 [0x02] .write false 0, .submit 0 xReq .write false 0]) := by decide +kernel
  cases hr : run .perIteration init exReconnect with
  | none => rw [hr] at key; cases key
  | some s =>
    rw [hr] at key
    simp only [Option.map_some, Option.some.injEq] at key
    exact ⟨s, _, _, _, _, _, ⟨_, hr⟩, key, 0, by decide⟩

/-! ## C42 -/

/-- C42: every message handed to the port is the frame compiled from the data some caller submitted. -/
theorem C42_wire_contents {lv : LoopVars} {s : St} (h : Reachable lv s) (w u : Nat) (m : List UInt8)
    (hm : .cmd w u m ∈ s.hist) :
    ∃ data kind to er, .submit u data kind to er ∈ s.hist ∧ compileMessage data = .ok m := by
  have hc := contents h
  obtain ⟨h1, h2, h3⟩ := hc.cmd w u m hm
  obtain ⟨data, kind, to, er, hsub⟩ := hc.all u h2
  obtain ⟨-, hp, -, -⟩ := hc.submit u data kind to er hsub
  refine ⟨data, kind, to, er, hsub, ?_⟩
  obtain ⟨m', hm'⟩ := compileMessage_ok data
  unfold newSendPackage at hp
  rw [hm'] at hp
  simp only [bind_ok] at hp
  injection hp with hp
  rw [h1, hm', ← hp]

/-- C42: a request is submitted once, and the port gets it at most once plus once per resend of that
request; resends come from resend goroutines, which only a CAN starts. -/
theorem C42_wire_count {lv : LoopVars} {s : St} (h : Reachable lv s) (u : Nat) :
    s.hist.countP (evSent u) ≤ 1 + s.hist.countP (fun e => e == .resend u) ∧
    s.hist.countP (fun e => match e with | .resend _ => true | _ => false) ≤
      s.hist.countP (fun e => match e with | .spawnResend _ _ => true | _ => false) := by
  obtain ⟨h1, h2⟩ := wire (u := u) h
  obtain ⟨h3⟩ := spawn h
  have e1 : evSent u = isSent u := by funext e; cases e <;> rfl
  have e2 : (fun e : Ev => e == .resend u) = isResend u := by
    funext e; cases e <;> simp [isResend]
    rename_i v; simp [BEq.beq]
  refine ⟨?_, ?_⟩
  · rw [e1, e2]
    unfold nEv at h1 h2
    split at h2 <;> omega
  · have e3 : (fun e : Ev => match e with | .resend _ => true | _ => false) = anyResend := by
      funext e; cases e <;> rfl
    have e4 : (fun e : Ev => match e with | .spawnResend _ _ => true | _ => false) = anySpawn := by
      funext e; cases e <;> rfl
    rw [e3, e4]
    unfold nEv at h3
    omega

/-- C42, nothing is dropped: a submitted request has been handed to the port as often as it was
submitted and resent, except for the copies still on their way (offered by the caller, offered by a
resend goroutine, or held by a writer that has not called `Write` yet). -/
theorem C42_wire_conservation {lv : LoopVars} {s : St} (h : Reachable lv s) (u : Nat)
    (hu : u < s.nReq) (h1 : s.client u ≠ .sending) (h2 : ∀ i, s.resend i ≠ .sending u)
    (h3 : ∀ w, wPend (s.writer w) ≠ some u) :
    s.hist.countP (evSent u) = 1 + s.hist.countP (fun e => e == .resend u) := by
  obtain ⟨k1, k2⟩ := wire (u := u) h
  have e1 : evSent u = isSent u := by funext e; cases e <;> rfl
  have e2 : (fun e : Ev => e == .resend u) = isResend u := by
    funext e; cases e <;> simp [isResend]
    rename_i v; simp [BEq.beq]
  have z : ∀ (p : Nat → Bool) n, (∀ i, p i = false) → cnt p n = 0 := by
    intro p n hp
    induction n with
    | zero => rfl
    | succ n ih => simp [cnt, ih, hp]
  have z1 : wHold u s.writer s.nWriter = 0 := z _ _ (fun i => by simpa using h3 i)
  have z2 : sHold u s.resend s.nResend = 0 := z _ _ (fun i => by
    have := h2 i
    cases hx : s.resend i <;> simp_all [sPend])
  rw [if_pos hu] at k2
  rw [if_neg h1, z1, z2] at k1
  rw [e1, e2]
  unfold nEv at k1 k2
  omega

example : (run .perLoop init exSeq).map (fun s => (s.nReq, s.client 1, s.writer 0)) =
    some (2, .done, .await 1) := by decide +kernel

/-! ## C68 -/

/-- C68 until the first reconnect: when the reader passes a control byte to a waiting writer, the
writer's command is the one the reader identified as outstanding, and that command has been written to
the port and is unanswered. (Missing: after a reconnect, see `C68_violated_after_reconnect`.) -/
theorem C68_ack_attribution_partial {lv : LoopVars} {s : St} (h : Reachable lv s)
    (hn : s.nWriter ≤ 1) (c : Scan) (u w v : Nat) (hr : s.reader = .scanSend c u)
    (hv : s.result w = .waiting v) :
    v = u ∧ s.lastCommand = some u ∧ ∃ p, trace w s.hist = .start u :: p ∧ Paired p := by
  have ht := trOk (w := w) h
  have hl := lockInv h
  have ha := ackInv h
  have hscan : s.lock = some .scan := hl.rs.1 (by rw [hr]; rfl)
  have hnw : wAtWrite (s.writer w) = none := by
    cases hx : wAtWrite (s.writer w) with
    | none => rfl
    | some x =>
      have := (hl.w w).1 (wAtWrite_crit hx).1
      rw [hscan] at this; cases this
  cases hx : wAfter (s.writer w) with
  | none => have := (ht.early hnw hx).1; rw [hv] at this; cases this
  | some x =>
    rcases ht.after x hx with ⟨h1, h2⟩ | ⟨h1, -⟩
    · rw [hv] at h1; cases h1
      have hh : wHas (s.writer w) = some v := by
        cases hy : s.writer w <;> simp_all [wAfter, wHas]
      have h3 := ha.last hn w v hh
      rcases ha.send u (by rw [hr]; rfl) with h4 | h4
      · rw [h3] at h4; cases h4
        exact ⟨rfl, h3, h2⟩
      · rw [h3] at h4; cases h4
    · rw [hv] at h1; cases h1

example : ∃ s, Reachable .perLoop s ∧ s.nWriter ≤ 1 ∧ (∃ c, s.reader = .scanSend c 0) ∧
    s.result 0 = .waiting 0 := by
  let ls := [.connect true, .submit xReq .write false 0] ++ xSend 0 0 ++ xRead [0x06] ++
    [.reader (.pick 0), .reader .go, .reader .go]
  have key : (run .perLoop init ls).map (fun s =>
      (s.nWriter, (match s.reader with | .scanSend _ u => u | _ => 5), s.result 0)) =
      some (1, 0, .waiting 0) := by decide +kernel
  cases hr : run .perLoop init ls with
  | none => rw [hr] at key; cases key
  | some s =>
    rw [hr] at key
    simp only [Option.map_some, Option.some.injEq, Prod.mk.injEq] at key
    refine ⟨s, ⟨_, hr⟩, by omega, ?_, key.2.2⟩
    have k2 := key.2.1
    cases hx : s.reader <;> simp [hx] at k2
    subst k2
    exact ⟨_, rfl⟩

/-- Two writers wait; the scan identifies the command of writer 1, and the result goroutine of
writer 0 receives the ACK. -/
def exWrongAck : List Label := exReconnect ++ xRead [0x06] ++ xMiss 0 ++ xHit 1 0

/-- C68 is false after a reconnect: the ACK for the newest command is credited to the command of the
old writer, which was written to the previous, failed port. -/
theorem C68_violated_after_reconnect : ∃ s, Reachable .perIteration s ∧
    s.lastCommand = some 1 ∧ Ev.result 0 0 0x06 ∈ s.hist ∧ s.result 1 = .waiting 1 := by
  have key : (run .perIteration init exWrongAck).map (fun s =>
      (s.lastCommand, s.hist.contains (Ev.result 0 0 0x06), s.result 1)) =
      some (some 1, true, .waiting 1) := by decide +kernel
  cases hr : run .perIteration init exWrongAck with
  | none => rw [hr] at key; cases key
  | some s =>
    rw [hr] at key
    simp only [Option.map_some, Option.some.injEq, Prod.mk.injEq] at key
    exact ⟨s, ⟨_, hr⟩, key.1, by simpa using key.2.1, key.2.2⟩

end Verif.Props
