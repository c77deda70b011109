import Verif.Lemmas.ConnOrder
import Verif.Props.Commands
import Verif.Props.ConnLive

/-
C90, C91: from a command of the user to the wire.
-/

set_option linter.unusedSimpArgs false
set_option linter.unusedVariables false

namespace Verif.Props

open Verif.Go Verif.Model Verif.Model.Conn Verif.Spec Verif.Lemmas Verif.Lemmas.Conn

/-! ## C90 -/

/-- C90: what goes to the port for a request is the frame of the submitted data. -/
theorem C90_frame_of_request {lv : LoopVars} {s : St} (h : Reachable lv s) {u w : Nat} {data m : List UInt8}
    {kind : Kind} {to : Bool} {er : UInt8} (hs : .submit u data kind to er ∈ s.hist) (hm : .cmd w u m ∈ s.hist)
    (hd : data.length ≤ 253) : IsFrame (0x00 :: data) m := by
  have hc := contents h
  obtain ⟨h1, -, -⟩ := hc.cmd w u m hm
  obtain ⟨-, hp, -, -⟩ := hc.submit u data kind to er hs
  obtain ⟨ck, e1, e2⟩ := C01_compile_wellformed data hd
  unfold newSendPackage at hp
  rw [e1] at hp
  simp only [bind_ok] at hp
  injection hp with hp
  rw [h1, ← hp]
  exact e2

theorem setPayload_length (b cls v : UInt8) : (setPayload b cls v).length ≤ 253 := by simp [setPayload]

/-- The node id as a byte. -/
theorem idByte {n : Node} (h0 : 0 ≤ n.id) (h1 : n.id ≤ 255) : ((intToByte n.id).toNat : Int) = n.id := by
  obtain ⟨k, hk⟩ : ∃ k : Nat, n.id = k := ⟨n.id.toNat, by omega⟩
  rw [hk]
  unfold intToByte
  simp
  omega

/-- C90: a node with a binary switch, told to switch on, gets exactly the frame "set 0xFF" on the wire, addressed to
it; without a binary but with a multilevel switch the frame "set 99". -/
theorem C90_on_wire {lv : LoopVars} {s : St} (h : Reachable lv s) (undef : Float64 → UInt8) (n : Node)
    (h0 : 0 ≤ n.id) (h1 : n.id ≤ 255) {u w : Nat} {data m : List UInt8} {kind : Kind} {to : Bool} {er : UInt8}
    (hd : data ∈ n.on undef) (hs : .submit u data kind to er ∈ s.hist) (hm : .cmd w u m ∈ s.hist) :
    ∃ b : UInt8, (b.toNat : Int) = n.id ∧
      (Supports n 0x25 ∧ IsFrame [0x00, 0x13, b, 0x03, 0x25, 0x01, 0xFF, 0x25] m ∨
        ¬ Supports n 0x25 ∧ Supports n 0x26 ∧ IsFrame [0x00, 0x13, b, 0x03, 0x26, 0x01, 99, 0x25] m) := by
  obtain ⟨a1, a2, a3⟩ := C26_on undef n
  refine ⟨_, idByte h0 h1, ?_⟩
  by_cases e1 : Supports n 0x25
  · rw [a1 e1] at hd
    cases List.mem_singleton.1 hd
    exact .inl ⟨e1, C90_frame_of_request h hs hm (setPayload_length ..)⟩
  · by_cases e2 : Supports n 0x26
    · rw [a2 e1 e2] at hd
      cases List.mem_singleton.1 hd
      exact .inr ⟨e1, e2, C90_frame_of_request h hs hm (setPayload_length ..)⟩
    · rw [a3 e1 e2] at hd; cases hd

/-- C90: the same for switching off. -/
theorem C90_off_wire {lv : LoopVars} {s : St} (h : Reachable lv s) (undef : Float64 → UInt8) (n : Node)
    (h0 : 0 ≤ n.id) (h1 : n.id ≤ 255) {u w : Nat} {data m : List UInt8} {kind : Kind} {to : Bool} {er : UInt8}
    (hd : data ∈ n.off undef) (hs : .submit u data kind to er ∈ s.hist) (hm : .cmd w u m ∈ s.hist) :
    ∃ b : UInt8, (b.toNat : Int) = n.id ∧
      (Supports n 0x25 ∧ IsFrame [0x00, 0x13, b, 0x03, 0x25, 0x01, 0x00, 0x25] m ∨
        ¬ Supports n 0x25 ∧ Supports n 0x26 ∧ IsFrame [0x00, 0x13, b, 0x03, 0x26, 0x01, 0x00, 0x25] m) := by
  obtain ⟨a1, a2, a3⟩ := C26_off undef n
  refine ⟨_, idByte h0 h1, ?_⟩
  by_cases e1 : Supports n 0x25
  · rw [a1 e1] at hd
    cases List.mem_singleton.1 hd
    exact .inl ⟨e1, C90_frame_of_request h hs hm (setPayload_length ..)⟩
  · by_cases e2 : Supports n 0x26
    · rw [a2 e1 e2] at hd
      cases List.mem_singleton.1 hd
      exact .inr ⟨e1, e2, C90_frame_of_request h hs hm (setPayload_length ..)⟩
    · rw [a3 e1 e2] at hd; cases hd

/-- C90: and for levels: the frame carries the requested level, limited to 0 … 99, without its fraction. -/
theorem C90_level_wire {lv : LoopVars} {s : St} (h : Reachable lv s) (undef : Float64 → UInt8) (n : Node)
    (h0 : 0 ≤ n.id) (h1 : n.id ≤ 255) (q : Rat) {u w : Nat} {data m : List UInt8} {kind : Kind} {to : Bool} {er : UInt8}
    (hd : data ∈ n.level undef (.fin q)) (hs : .submit u data kind to er ∈ s.hist) (hm : .cmd w u m ∈ s.hist) :
    Supports n 0x26 ∧ ∃ b v : UInt8, (b.toNat : Int) = n.id ∧ IsLevel q v.toNat ∧
      IsFrame [0x00, 0x13, b, 0x03, 0x26, 0x01, v, 0x25] m := by
  obtain ⟨a1, a2⟩ := C26_level undef n q h0 h1
  by_cases e : Supports n 0x26
  · obtain ⟨b, v, k1, k2, k3⟩ := a1 e
    rw [k3] at hd
    cases List.mem_singleton.1 hd
    exact ⟨e, b, v, k1, k2, C90_frame_of_request h hs hm (setPayload_length ..)⟩
  · rw [a2 e] at hd; cases hd

/-- A command for an endpoint, encapsulated: the node is addressed, the endpoint selected. -/
theorem encap_set {b cls v : UInt8} {ep : Int} {r : List (List UInt8)} {data : List UInt8}
    (hr : encapAll ep [setPayload b cls v] = .ok r) (hd : data ∈ r) :
    data = [0x13, b, 0x07, 0x60, 0x0D, 0x01, intToByte ep, cls, 0x01, v, 0x25] := by
  have : encapAll ep [setPayload b cls v] =
      .ok [[0x13, b, 0x07, 0x60, 0x0D, 0x01, intToByte ep, cls, 0x01, v, 0x25]] := rfl
  rw [this] at hr
  injection hr with hr
  rw [← hr] at hd
  exact List.mem_singleton.1 hd

/-- C90: an endpoint told to switch on: the frame goes to its node and selects the endpoint. -/
theorem C90_endpoint_on_wire {lv : LoopVars} {s : St} (h : Reachable lv s) (undef : Float64 → UInt8) (n : Node)
    (e : Endpoint) (hl : e.linked = true) (h0 : 0 ≤ n.id) (h1 : n.id ≤ 255) (k0 : 0 ≤ e.id) (k1 : e.id ≤ 255)
    {u w : Nat} {data m : List UInt8} {kind : Kind} {to : Bool} {er : UInt8} {r : List (List UInt8)}
    (hr : e.on undef n = .ok r) (hd : data ∈ r) (hs : .submit u data kind to er ∈ s.hist)
    (hm : .cmd w u m ∈ s.hist) :
    ∃ b ep : UInt8, (b.toNat : Int) = n.id ∧ (ep.toNat : Int) = e.id ∧
      (Supports n 0x25 ∧ IsFrame [0x00, 0x13, b, 0x07, 0x60, 0x0D, 0x01, ep, 0x25, 0x01, 0xFF, 0x25] m ∨
        ¬ Supports n 0x25 ∧ Supports n 0x26 ∧
          IsFrame [0x00, 0x13, b, 0x07, 0x60, 0x0D, 0x01, ep, 0x26, 0x01, 99, 0x25] m) := by
  obtain ⟨a1, a2, a3⟩ := C26_on undef n
  rw [(C28_endpoint_commands undef n e hl (.fin 0)).1] at hr
  refine ⟨_, _, idByte h0 h1, intToByte_toNat _ k0 k1, ?_⟩
  by_cases e1 : Supports n 0x25
  · rw [a1 e1] at hr
    cases encap_set hr hd
    exact .inl ⟨e1, C90_frame_of_request h hs hm (by simp)⟩
  · by_cases e2 : Supports n 0x26
    · rw [a2 e1 e2] at hr
      cases encap_set hr hd
      exact .inr ⟨e1, e2, C90_frame_of_request h hs hm (by simp)⟩
    · rw [a3 e1 e2] at hr; cases hr; cases hd

/-- C90: an endpoint told to switch off. -/
theorem C90_endpoint_off_wire {lv : LoopVars} {s : St} (h : Reachable lv s) (undef : Float64 → UInt8) (n : Node)
    (e : Endpoint) (hl : e.linked = true) (h0 : 0 ≤ n.id) (h1 : n.id ≤ 255) (k0 : 0 ≤ e.id) (k1 : e.id ≤ 255)
    {u w : Nat} {data m : List UInt8} {kind : Kind} {to : Bool} {er : UInt8} {r : List (List UInt8)}
    (hr : e.off undef n = .ok r) (hd : data ∈ r) (hs : .submit u data kind to er ∈ s.hist)
    (hm : .cmd w u m ∈ s.hist) :
    ∃ b ep : UInt8, (b.toNat : Int) = n.id ∧ (ep.toNat : Int) = e.id ∧
      (Supports n 0x25 ∧ IsFrame [0x00, 0x13, b, 0x07, 0x60, 0x0D, 0x01, ep, 0x25, 0x01, 0x00, 0x25] m ∨
        ¬ Supports n 0x25 ∧ Supports n 0x26 ∧
          IsFrame [0x00, 0x13, b, 0x07, 0x60, 0x0D, 0x01, ep, 0x26, 0x01, 0x00, 0x25] m) := by
  obtain ⟨a1, a2, a3⟩ := C26_off undef n
  rw [(C28_endpoint_commands undef n e hl (.fin 0)).2.1] at hr
  refine ⟨_, _, idByte h0 h1, intToByte_toNat _ k0 k1, ?_⟩
  by_cases e1 : Supports n 0x25
  · rw [a1 e1] at hr
    cases encap_set hr hd
    exact .inl ⟨e1, C90_frame_of_request h hs hm (by simp)⟩
  · by_cases e2 : Supports n 0x26
    · rw [a2 e1 e2] at hr
      cases encap_set hr hd
      exact .inr ⟨e1, e2, C90_frame_of_request h hs hm (by simp)⟩
    · rw [a3 e1 e2] at hr; cases hr; cases hd

/-- C90: an endpoint told to take a level. -/
theorem C90_endpoint_level_wire {lv : LoopVars} {s : St} (h : Reachable lv s) (undef : Float64 → UInt8) (n : Node)
    (e : Endpoint) (hl : e.linked = true) (h0 : 0 ≤ n.id) (h1 : n.id ≤ 255) (k0 : 0 ≤ e.id) (k1 : e.id ≤ 255)
    (q : Rat) {u w : Nat} {data m : List UInt8} {kind : Kind} {to : Bool} {er : UInt8} {r : List (List UInt8)}
    (hr : e.level undef n (.fin q) = .ok r) (hd : data ∈ r) (hs : .submit u data kind to er ∈ s.hist)
    (hm : .cmd w u m ∈ s.hist) :
    Supports n 0x26 ∧ ∃ b ep v : UInt8, (b.toNat : Int) = n.id ∧ (ep.toNat : Int) = e.id ∧ IsLevel q v.toNat ∧
      IsFrame [0x00, 0x13, b, 0x07, 0x60, 0x0D, 0x01, ep, 0x26, 0x01, v, 0x25] m := by
  obtain ⟨a1, a2⟩ := C26_level undef n q h0 h1
  rw [(C28_endpoint_commands undef n e hl (.fin q)).2.2.1] at hr
  by_cases e1 : Supports n 0x26
  · obtain ⟨b, v, k1', k2, k3⟩ := a1 e1
    rw [k3] at hr
    cases encap_set hr hd
    exact ⟨e1, b, _, v, k1', intToByte_toNat _ k0 k1, k2, C90_frame_of_request h hs hm (by simp)⟩
  · rw [a2 e1] at hr; cases hr; cases hd

/-- C90: a command whose caller still waits for a writer can reach the port from every state of a running process with
an open port, whatever the other goroutines are doing (or the process crashes). -/
theorem C90_can_reach_port {lv : LoopVars} {s : St} {u : Nat} (h : Reachable lv s) (hn : s.crashed = none)
    (hp : s.port = .up) (hw : 0 < s.nWriter) (hc : s.client u = .sending) :
    ∃ ls s', run lv s ls = some s' ∧ (s'.crashed ≠ none ∨ ∃ w m, .cmd w u m ∈ s'.hist) := reaches_port h hn hp hw hc

/-! An instance: node 7 with a multilevel switch is told to switch on. -/

/-- A command, sent. -/
def exOn : List Label := [.connect true, .submit [0x13, 7, 0x03, 0x26, 0x01, 99, 0x25] .write false 0] ++ xSend 0 0

example : (exNode.on fun _ => 0) = [[0x13, 7, 0x03, 0x26, 0x01, 99, 0x25]] := by decide +kernel

example : (run .perLoop init exOn).map (fun s => s.hist) =
    some [.cmd 0 0 [0x01, 0x09, 0x00, 0x13, 7, 0x03, 0x26, 0x01, 99, 0x25, 0x80],
      .submit 0 [0x13, 7, 0x03, 0x26, 0x01, 99, 0x25] .write false 0] := by decide +kernel

/-- Endpoint 2 of the same node, told to take level 42.5. -/
example : ∃ s e r data m, Reachable .perLoop s ∧ e ∈ exNode.endpoints.getD [] ∧ e.linked = true ∧ e.id = 2 ∧
    e.level (fun _ => 0) exNode (.fin (85 / 2)) = .ok r ∧ data ∈ r ∧ .submit 0 data .write false 0 ∈ s.hist ∧
    .cmd 0 0 m ∈ s.hist ∧ m = [0x01, 13, 0x00, 0x13, 7, 0x07, 0x60, 0x0D, 0x01, 2, 0x26, 0x01, 42, 0x25, 0xA7] := by
  obtain ⟨s, h, hv⟩ := reach_view (lv := .perLoop) (ls := [.connect true,
      .submit [0x13, 7, 0x07, 0x60, 0x0D, 0x01, 2, 0x26, 0x01, 42, 0x25] .write false 0] ++ xSend 0 0)
    (f := fun s => s.hist)
    (a := [.cmd 0 0 [0x01, 13, 0x00, 0x13, 7, 0x07, 0x60, 0x0D, 0x01, 2, 0x26, 0x01, 42, 0x25, 0xA7],
      .submit 0 [0x13, 7, 0x07, 0x60, 0x0D, 0x01, 2, 0x26, 0x01, 42, 0x25] .write false 0]) (by decide +kernel)
  refine ⟨s, ⟨2, none, some [], some [], true⟩, [[0x13, 7, 0x07, 0x60, 0x0D, 0x01, 2, 0x26, 0x01, 42, 0x25]], _, _, h, ?_, rfl,
    rfl, ?_, List.mem_singleton.2 rfl, ?_, ?_, rfl⟩
  · decide +kernel
  · decide +kernel
  · rw [hv]; simp
  · rw [hv]; simp

/-- A state with another writer busy and the lock taken. -/
example : ∃ s, Reachable .perLoop s ∧ s.crashed = none ∧ s.port = .up ∧ 0 < s.nWriter ∧ s.client 1 = .sending ∧
    s.lock = some (.writer 0) := by
  obtain ⟨s, h, hv⟩ := reach_view (lv := .perLoop) (ls := [.connect true, .submit xReq .write false 0,
      .submit xReq .write false 0, .take 0 (.client 0), .writer 0])
    (f := fun s => (s.crashed, s.port, s.nWriter, s.client 1, s.lock)) (a := (none, .up, 1, .sending, some (.writer 0)))
    (by decide +kernel)
  simp only [Prod.mk.injEq] at hv
  exact ⟨s, h, hv.1, hv.2.1, by omega, hv.2.2.2.1, hv.2.2.2.2⟩

/-! ## C91 -/

/-- C91 until the first reconnect (`nWriter` counts the successful `Connect` calls): a command given when the call
for an earlier one has returned follows it on the wire: before every transmission of the later command there is one of
the earlier. (Missing: after a reconnect, and repetitions of the earlier command; see the counterexamples.) -/
theorem C91_in_turn_partial {lv : LoopVars} {s1 s2 : St} (h1 : Reachable lv s1) {u v : Nat} (hu : u < s1.nReq)
    (hc : s1.client u ≠ .sending) (hv : s1.nReq ≤ v) {ls : List Label} (h2 : run lv s1 ls = some s2)
    (hn : s2.nWriter ≤ 1) {later earlier : List Ev} {w : Nat} {m : List UInt8}
    (hs : s2.hist = later ++ .cmd w v m :: earlier) : ∃ e ∈ earlier, evSent u e = true := by
  have hne : u ≠ v := by omega
  have h0 : OrderInv u v s1 := by
    refine ⟨fun _ => ?_, ?_⟩
    · have hno : ∀ w m, Ev.cmd w v m ∉ s1.hist := by
        intro w m hm
        have := ((contents h1).cmd w v m hm).2.1
        omega
      generalize s1.hist = l at hno
      induction l with
      | nil => trivial
      | cons e l ih =>
        refine ⟨ih fun w m hm => hno w m (List.mem_cons_of_mem _ hm), ?_⟩
        rintro ⟨w, m, rfl⟩
        exact absurd List.mem_cons_self (hno w m)
    · rw [sentB_iff]; exact handed_over h1 hu hc
  exact after_split ((order_run hne h1 h0 h2).after hn) hs

/-- Switch 2, on and off; the frames. -/
def setOn : List UInt8 := [0x13, 2, 0x03, 0x25, 0x01, 0xFF, 0x25]
def setOff : List UInt8 := [0x13, 2, 0x03, 0x25, 0x01, 0x00, 0x25]
def frameOn : List UInt8 := [0x01, 0x09, 0x00, 0x13, 2, 0x03, 0x25, 0x01, 0xFF, 0x25, 0x1A]
def frameOff : List UInt8 := [0x01, 0x09, 0x00, 0x13, 2, 0x03, 0x25, 0x01, 0x00, 0x25, 0xE5]

/-- Two parts of a concrete run. -/
theorem run_parts {lv : LoopVars} {α β : Type} {l1 l2 : List Label} {f : St → α} {a : α} {g : St → β} {b : β}
    (h1 : (run lv init l1).map f = some a) (h2 : (run lv init (l1 ++ l2)).map g = some b) :
    ∃ s1 s2, Reachable lv s1 ∧ run lv s1 l2 = some s2 ∧ f s1 = a ∧ g s2 = b := by
  cases e : run lv init l1 with
  | none => rw [e] at h1; cases h1
  | some s1 =>
    rw [run_append, e] at h2
    rw [e] at h1
    cases e2 : run lv s1 l2 with
    | none => simp [e2] at h2
    | some s2 =>
      simp [e2] at h2
      simp at h1
      exact ⟨s1, s2, ⟨l1, e⟩, e2, h1, h2⟩

/-- On, then off, after the acknowledgement. -/
example : ∃ s1 s2 ls earlier, Reachable .perLoop s1 ∧ 0 < s1.nReq ∧ s1.client 0 ≠ .sending ∧ s1.nReq ≤ 1 ∧
    run .perLoop s1 ls = some s2 ∧ s2.nWriter ≤ 1 ∧ s2.hist = [] ++ .cmd 0 1 frameOff :: earlier := by
  obtain ⟨s1, s2, h1, h2, e1, e2⟩ := run_parts (lv := .perLoop)
    (l1 := [.connect true, .submit setOn .write false 0] ++ xSend 0 0)
    (l2 := xAck 0 0 ++ [.submit setOff .write false 0] ++ xSend 0 1)
    (f := fun s => (s.nReq, s.client 0)) (a := (1, .done))
    (g := fun s => (s.nWriter, s.hist)) (b := (1, [.cmd 0 1 frameOff, .submit 1 setOff .write false 0,
      .result 0 0 0x06, .visit 0 0, .cmd 0 0 frameOn, .submit 0 setOn .write false 0]))
    (by decide +kernel) (by decide +kernel)
  simp only [Prod.mk.injEq] at e1 e2
  exact ⟨s1, s2, _, _, h1, by omega, by rw [e1.2]; decide, by omega, h2, by omega, e2.2⟩

/-- C91 is false after a reconnect: the writer of the old connection has taken "on" and the call has returned; the
writer of the new connection takes "off" and is faster, so that the device is switched on in the end. -/
theorem C91_violated_after_reconnect : ∃ s1 s2 ls earlier, Reachable .perIteration s1 ∧ 0 < s1.nReq ∧
    s1.client 0 = .done ∧ s1.nReq ≤ 1 ∧ run .perIteration s1 ls = some s2 ∧
    s2.hist = [.cmd 0 0 frameOn] ++ .cmd 1 1 frameOff :: earlier ∧ ∀ e ∈ earlier, evSent 0 e = false := by
  obtain ⟨s1, s2, h1, h2, e1, e2⟩ := run_parts (lv := .perIteration)
    (l1 := [.connect true, .reader .fail, .connect true, .submit setOn .write false 0, .take 0 (.client 0)])
    (l2 := .submit setOff .write false 0 :: xSend 1 1 ++ List.replicate 9 (.writer 0))
    (f := fun s => (s.nReq, s.client 0)) (a := (1, .done))
    (g := fun s => s.hist) (b := [.cmd 0 0 frameOn, .cmd 1 1 frameOff, .submit 1 setOff .write false 0,
      .submit 0 setOn .write false 0])
    (by decide +kernel) (by decide +kernel)
  simp only [Prod.mk.injEq] at e1
  exact ⟨s1, s2, _, _, h1, by omega, e1.2, by omega, h2, e2, by decide⟩

/-- C91 is false for repetitions, also with one connection and fresh loop variables: the stick cancels "on"; "off" is
sent and acknowledged; then "on" is sent again, so that the device is switched on in the end. -/
theorem C91_violated_by_cancel : ∃ s1 s2 ls earlier, Reachable .perIteration s1 ∧ 0 < s1.nReq ∧
    s1.client 0 = .done ∧ s1.nReq ≤ 1 ∧ run .perIteration s1 ls = some s2 ∧ s2.nWriter = 1 ∧
    s2.hist = [.cmd 0 0 frameOn, .resend 0, .visit 1 0, .result 0 1 0x06, .visit 1 1] ++ .cmd 0 1 frameOff :: earlier := by
  obtain ⟨s1, s2, h1, h2, e1, e2⟩ := run_parts (lv := .perIteration)
    (l1 := [.connect true, .submit setOn .write false 0] ++ xSend 0 0)
    (l2 := xRead [0x18] ++ xHit 0 0 ++
      [.reader .go, .reader .go, .reader .stop, .reader .go, .reader .go, .writer 0, .writer 0] ++
      [.submit setOff .write false 0] ++ xSend 0 1 ++ (xRead [0x06] ++ xHit 1 0 ++
      [.reader .go, .reader .go] ++ xMiss 0 ++ [.reader .stop, .reader .go, .reader .go, .writer 0, .writer 0]) ++
      [.resend 0, .take 0 (.resend 0)] ++ List.replicate 9 (.writer 0))
    (f := fun s => (s.nReq, s.client 0)) (a := (1, .done))
    (g := fun s => (s.nWriter, s.hist)) (b := (1, [.cmd 0 0 frameOn, .resend 0, .visit 1 0, .result 0 1 0x06, .visit 1 1,
      .cmd 0 1 frameOff, .submit 1 setOff .write false 0, .spawnResend 0 0, .result 0 0 0x18, .visit 0 0,
      .cmd 0 0 frameOn, .submit 0 setOn .write false 0]))
    (by decide +kernel) (by decide +kernel)
  simp only [Prod.mk.injEq] at e1 e2
  exact ⟨s1, s2, _, _, h1, by omega, e1.2, by omega, h2, e2.1, e2.2⟩

end Verif.Props
