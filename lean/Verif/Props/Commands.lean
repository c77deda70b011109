import Verif.Lemmas.Serial
import Verif.Spec.Commands

/-
C23–C28: encoding of commands, node and endpoint commands.
-/

set_option linter.unusedSimpArgs false

namespace Verif.Props

open Verif.Go Verif.Model Verif.Spec Verif.Lemmas

/-! ## C23 -/

/-- The node byte of a node id 0 … 255 is that id. -/
theorem intToByte_toNat (n : Int) (h0 : 0 ≤ n) (h1 : n ≤ 255) : ((intToByte n).toNat : Int) = n := by
  have : (intToByte n).toNat = n.toNat := by
    simp only [intToByte, UInt8.toNat_ofNat']
    omega
  omega

/-- C23, binary switches. -/
theorem C23_binary (node : Int) (v : Bool) (h0 : 0 ≤ node) (h1 : node ≤ 255) :
    ∃ b : UInt8, (b.toNat : Int) = node ∧
      switchBinaryEncode node v = setPayload b 0x25 (if v then 0xFF else 0x00) :=
  ⟨intToByte node, intToByte_toNat node h0 h1, rfl⟩

/-- C23, levels of finite values: limited to 0 … 99 and truncated, on every implementation. -/
theorem C23_level (undef : Float64 → UInt8) (node : Int) (q : Rat) (h0 : 0 ≤ node)
    (h1 : node ≤ 255) :
    ∃ b v : UInt8, (b.toNat : Int) = node ∧ IsLevel q v.toNat ∧
      switchMultilevelEncode undef node (.fin q) = setPayload b 0x26 v := by
  refine ⟨intToByte node, multilevelLevel undef (.fin q), intToByte_toNat node h0 h1, ?_, rfl⟩
  unfold multilevelLevel IsLevel
  by_cases hq1 : q < 1
  · have e : (Float64.fin q).lt (.fin 1) = true := by simp [Float64.lt, hq1]
    have e2 : (Float64.fin 99).lt (.fin 0) = false := by decide
    simp only [e, if_true, e2]
    have hv : (Float64.toByte undef (.fin 0)).toNat = 0 := by
      have : Float64.trunc 0 = 0 := by decide
      simp [Float64.toByte, this]
    by_cases hq0 : q < 0
    · exact .inl ⟨hq0, hv⟩
    · have : (0 : Rat) ≤ q := by exact Rat.not_lt.1 hq0
      refine .inr (.inr ⟨this, ?_, ?_, ?_⟩)
      · have h99 : (1 : Rat) ≤ 99 := by decide
        exact Rat.le_trans (Rat.le_of_lt hq1) h99
      · rw [show (if false = true then Float64.fin 99 else Float64.fin 0) = .fin 0 from rfl, hv]
        exact this
      · rw [show (if false = true then Float64.fin 99 else Float64.fin 0) = .fin 0 from rfl, hv]
        simpa [Rat.zero_add] using hq1
  · have e : (Float64.fin q).lt (.fin 1) = false := by simp [Float64.lt, hq1]
    have hq1' : (1 : Rat) ≤ q := Rat.not_lt.1 hq1
    by_cases hq2 : 99 < q
    · have e2 : (Float64.fin 99).lt (.fin q) = true := by simp [Float64.lt, hq2]
      simp only [e, e2, if_true]
      refine .inr (.inl ⟨hq2, ?_⟩)
      have : Float64.trunc 99 = 99 := by decide
      simp [e2, Float64.toByte, this]
    · have e2 : (Float64.fin 99).lt (.fin q) = false := by simp [Float64.lt, hq2]
      have hq2' : q ≤ 99 := Rat.not_lt.1 hq2
      have h0q : (0 : Rat) ≤ q := Rat.le_trans (by decide) hq1'
      have hnn : ¬ q < 0 := Rat.not_lt.2 h0q
      have ht : Float64.trunc q = q.floor := by simp [Float64.trunc, hnn]
      have hf0 : 0 ≤ q.floor := Rat.le_floor_iff.2 (by simpa using h0q)
      have hf1 : q.floor ≤ 99 := by
        have : (q.floor : Rat) ≤ ((99 : Int) : Rat) := Rat.le_trans (Rat.floor_le q) hq2'
        exact Rat.intCast_le_intCast.1 this
      have hv : (Float64.toByte undef (.fin q)).toNat = q.floor.toNat := by
        simp only [Float64.toByte, ht]
        rw [if_pos ⟨hf0, by omega⟩]
        simp only [UInt8.toNat_ofNat']
        omega
      simp only [e, Bool.false_eq_true, if_false, e2, hv]
      refine .inr (.inr ⟨h0q, hq2', ?_, ?_⟩)
      · have : ((q.floor.toNat : Nat) : Rat) = (q.floor : Rat) := by
          have h := Int.toNat_of_nonneg hf0
          rw [← Rat.intCast_natCast, h]
        rw [this]
        exact Rat.floor_le q
      · have : ((q.floor.toNat : Nat) : Rat) = (q.floor : Rat) := by
          have h := Int.toNat_of_nonneg hf0
          rw [← Rat.intCast_natCast, h]
        rw [this]
        have h2 : q - 1 < (q.floor : Rat) := Rat.lt_floor (x := q)
        exact Rat.sub_lt_iff.1 h2

/-- C23, infinities. -/
theorem C23_infinite (undef : Float64 → UInt8) (node : Int) :
    switchMultilevelEncode undef node .posInf = setPayload (intToByte node) 0x26 99 ∧
    switchMultilevelEncode undef node .negInf = setPayload (intToByte node) 0x26 0 := by
  have h99 : Float64.trunc 99 = 99 := by decide
  have h0 : Float64.trunc 0 = 0 := by decide
  constructor
  · simp [switchMultilevelEncode, multilevelLevel, Float64.lt, Float64.toByte, setPayload, h99,
      ccSwitchMultilevel]
  · have e : (Float64.fin 99).lt (.fin 0) = false := by decide
    have e1 : Float64.negInf.lt (.fin 1) = true := rfl
    simp [switchMultilevelEncode, multilevelLevel, e1, e, Float64.toByte, setPayload, h0,
      ccSwitchMultilevel]

/-- C23, NaN is the exception: the level byte is whatever the implementation converts NaN to. -/
theorem C23_nan_undefined (undef : Float64 → UInt8) (node : Int) :
    switchMultilevelEncode undef node .nan = setPayload (intToByte node) 0x26 (undef .nan) := rfl

example : IsLevel (1 / 2) 0 ∧ IsLevel (199 / 2) 99 ∧ IsLevel (99 / 2) 49 := by
  refine ⟨.inr (.inr (by decide +kernel)), .inr (.inl (by decide +kernel)),
    .inr (.inr (by decide +kernel))⟩

/-! ## C24 -/

/-- C24.  Encapsulation is lossless for every command of at least three bytes and every endpoint
id 0 … 255; the length byte and the length grow by four. -/
theorem C24_lossless (msg : List UInt8) (ep : Int) (hm : 3 ≤ msg.length) (h0 : 0 ≤ ep)
    (h1 : ep ≤ 255) :
    ∃ r b, encapEncode msg ep = .ok r ∧ decap r = some (msg, b) ∧ (b.toNat : Int) = ep ∧
      r.length = msg.length + 4 ∧ r[2]? = (msg[2]?).map (· + 4) ∧ r[0]? = msg[0]? ∧
      r[1]? = msg[1]? := by
  match msg, hm with
  | a :: b :: c :: rest, _ =>
    refine ⟨_, intToByte ep, rfl, ?_, intToByte_toNat ep h0 h1, by simp, rfl, rfl, rfl⟩
    simp [decap, ccMultiInstance, UInt8.add_sub_cancel]

/-- C24, shorter commands panic. -/
theorem C24_short_panics (msg : List UInt8) (ep : Int) (hm : msg.length < 3) :
    encapEncode msg ep = .error .index := by
  match msg, hm with
  | [], _ | [_], _ | [_, _], _ => rfl

/-- C24, different (command, endpoint) pairs never share an encapsulation. -/
theorem C24_injective (m m' : List UInt8) (ep ep' : Int) (r : List UInt8)
    (h : encapEncode m ep = .ok r) (h' : encapEncode m' ep' = .ok r)
    (he : 0 ≤ ep ∧ ep ≤ 255) (he' : 0 ≤ ep' ∧ ep' ≤ 255) : m = m' ∧ ep = ep' := by
  have hl : 3 ≤ m.length := by
    apply Nat.le_of_not_lt; intro hh; rw [C24_short_panics m ep hh] at h; cases h
  have hl' : 3 ≤ m'.length := by
    apply Nat.le_of_not_lt; intro hh; rw [C24_short_panics m' ep' hh] at h'; cases h'
  obtain ⟨r1, b1, a1, a2, a3, -⟩ := C24_lossless m ep hl he.1 he.2
  obtain ⟨r2, b2, c1, c2, c3, -⟩ := C24_lossless m' ep' hl' he'.1 he'.2
  rw [h] at a1; cases a1
  rw [h'] at c1; cases c1
  rw [a2] at c2
  cases c2
  exact ⟨rfl, by omega⟩

example : encapEncode [0x13, 5, 3, 0x25, 1, 0xFF, 0x25] 2 =
    .ok [0x13, 5, 7, 0x60, 0x0D, 1, 2, 0x25, 1, 0xFF, 0x25] := by decide

/-! ## C25 -/

/-- C25 is violated by every raw command: the length byte never is the number of bytes that follow. -/
theorem C25_violated_length (node : Int) (data : List UInt8) :
    ∃ f n L, rawEncode node data = f :: n :: L :: data ∧ L.toNat ≠ data.length :=
  ⟨0x13, intToByte node, toByte (data.length + 1), rfl, by
    simp only [toByte, UInt8.toNat_ofNat']; omega⟩

/-- C25, what holds: the payload is unchanged, the header names function and node, and the length
byte is the payload length plus one (modulo 256). (Missing: the correct length.) -/
theorem C25_raw_partial (node : Int) (data : List UInt8) (h0 : 0 ≤ node) (h1 : node ≤ 255) :
    ∃ n L : UInt8, rawEncode node data = 0x13 :: n :: L :: data ∧ (n.toNat : Int) = node ∧
      L.toNat = (data.length + 1) % 256 :=
  ⟨intToByte node, toByte (data.length + 1), rfl, intToByte_toNat node h0 h1, by
    simp [toByte]⟩

example : rawEncode 7 [0x72, 0x04, 0x00] = [0x13, 7, 4, 0x72, 0x04, 0x00] := by decide

/-! ## C26 -/

theorem hasCommand_iff (n : Node) (c : UInt8) : n.hasCommand c = true ↔ Supports n c := by
  unfold Node.hasCommand Supports
  cases h : n.classes with
  | none => simp
  | some cs => simp

/-- C26, On: exactly one command, of the binary class if supported, else multilevel 99, else
nothing. -/
theorem C26_on (undef : Float64 → UInt8) (n : Node) :
    (Supports n 0x25 → n.on undef = [setPayload (intToByte n.id) 0x25 0xFF]) ∧
    (¬ Supports n 0x25 → Supports n 0x26 →
      n.on undef = [setPayload (intToByte n.id) 0x26 99]) ∧
    (¬ Supports n 0x25 → ¬ Supports n 0x26 → n.on undef = []) := by
  have e1 := hasCommand_iff n 0x25
  have e2 := hasCommand_iff n 0x26
  have hl : multilevelLevel undef (.fin 100) = 99 := by
    have h1 : (Float64.fin 100).lt (.fin 1) = false := by decide
    have h2 : (Float64.fin 99).lt (.fin 100) = true := by decide
    have h3 : Float64.trunc 99 = 99 := by decide
    simp [multilevelLevel, h1, h2, Float64.toByte, h3]
  refine ⟨?_, ?_, ?_⟩
  · intro h
    simp [Node.on, ccSwitchBinary, e1.2 h, switchBinaryEncode, setPayload]
  · intro h h2
    have : n.hasCommand 0x25 = false := by
      rw [← Bool.not_eq_true, e1]; exact h
    simp [Node.on, ccSwitchBinary, ccSwitchMultilevel, this, e2.2 h2, switchMultilevelEncode, hl,
      setPayload]
  · intro h h2
    have a : n.hasCommand 0x25 = false := by
      rw [← Bool.not_eq_true, e1]; exact h
    have b : n.hasCommand 0x26 = false := by
      rw [← Bool.not_eq_true, e2]; exact h2
    simp [Node.on, ccSwitchBinary, ccSwitchMultilevel, a, b]

/-- C26, Off. -/
theorem C26_off (undef : Float64 → UInt8) (n : Node) :
    (Supports n 0x25 → n.off undef = [setPayload (intToByte n.id) 0x25 0x00]) ∧
    (¬ Supports n 0x25 → Supports n 0x26 →
      n.off undef = [setPayload (intToByte n.id) 0x26 0]) ∧
    (¬ Supports n 0x25 → ¬ Supports n 0x26 → n.off undef = []) := by
  have e1 := hasCommand_iff n 0x25
  have e2 := hasCommand_iff n 0x26
  have hl : multilevelLevel undef (.fin 0) = 0 := by
    have h1 : (Float64.fin 0).lt (.fin 1) = true := by decide
    have h2 : (Float64.fin 99).lt (.fin 0) = false := by decide
    have h3 : Float64.trunc 0 = 0 := by decide
    simp [multilevelLevel, h1, h2, Float64.toByte, h3]
  refine ⟨?_, ?_, ?_⟩
  · intro h
    simp [Node.off, ccSwitchBinary, e1.2 h, switchBinaryEncode, setPayload]
  · intro h h2
    have : n.hasCommand 0x25 = false := by
      rw [← Bool.not_eq_true, e1]; exact h
    simp [Node.off, ccSwitchBinary, ccSwitchMultilevel, this, e2.2 h2, switchMultilevelEncode, hl,
      setPayload]
  · intro h h2
    have a : n.hasCommand 0x25 = false := by
      rw [← Bool.not_eq_true, e1]; exact h
    have b : n.hasCommand 0x26 = false := by
      rw [← Bool.not_eq_true, e2]; exact h2
    simp [Node.off, ccSwitchBinary, ccSwitchMultilevel, a, b]

/-- C26, Level: one multilevel command with the right level, or nothing. -/
theorem C26_level (undef : Float64 → UInt8) (n : Node) (q : Rat) (h0 : 0 ≤ n.id)
    (h1 : n.id ≤ 255) :
    (Supports n 0x26 → ∃ b v : UInt8, (b.toNat : Int) = n.id ∧ IsLevel q v.toNat ∧
      n.level undef (.fin q) = [setPayload b 0x26 v]) ∧
    (¬ Supports n 0x26 → n.level undef (.fin q) = []) := by
  have e2 := hasCommand_iff n 0x26
  constructor
  · intro h
    obtain ⟨b, v, h2, h3, h4⟩ := C23_level undef n.id q h0 h1
    refine ⟨b, v, h2, h3, ?_⟩
    simp [Node.level, ccSwitchMultilevel, e2.2 h, h4]
  · intro h
    have b : n.hasCommand 0x26 = false := by
      rw [← Bool.not_eq_true, e2]; exact h
    simp [Node.level, ccSwitchMultilevel, b]

/-- A node with a multilevel switch. -/
def exNode : Node := { id := 7, classes := some [⟨0x20, true, false, false, []⟩,
  ⟨0x26, true, false, false, []⟩], endpoints := some [⟨1, none, some [], some [], true⟩,
  ⟨2, none, some [], some [], true⟩] }

example : ¬ Supports exNode 0x25 ∧ Supports exNode 0x26 := by
  rw [← hasCommand_iff, ← hasCommand_iff]; decide

/-! ## C27 -/

/-- C27 is violated: `Endpoint(1)` is the endpoint with id 2, and `Endpoint(2)` on a node with two
endpoints panics. -/
theorem C27_violated_offset :
    (∃ e, exNode.endpoint 1 = .ok (some e) ∧ e.id = 2) ∧ exNode.endpoint 2 = .error .index := by
  constructor
  · exact ⟨_, rfl, rfl⟩
  · decide

/-- C27, the exact behaviour on a node whose endpoints are numbered from 1 (see C59): ids
`0 … k-1` give the endpoint with the next id, `k` and negative ids panic, larger ids give nil.
(Missing: the endpoint that was asked for.) -/
theorem C27_lookup_partial (n : Node) (es : List Endpoint) (he : n.endpoints = some es)
    (hid : ∀ (i : Nat) (e : Endpoint), es[i]? = some e → e.id = (i : Int) + 1) (id : Int) :
    (id < 0 → n.endpoint id = .error .index) ∧
    (0 ≤ id → id < es.length → ∃ e, n.endpoint id = .ok (some e) ∧ e ∈ es ∧ e.id = id + 1) ∧
    (id = es.length → n.endpoint id = .error .index) ∧
    (id > es.length → n.endpoint id = .ok none) := by
  refine ⟨?_, ?_, ?_, ?_⟩
  · intro h
    simp only [Node.endpoint, he, Option.getD_some]
    rw [if_neg (by omega), if_pos h]
  · intro h1 h2
    have hlt : id.toNat < es.length := by omega
    have hg : es[id.toNat]? = some es[id.toNat] := by simp [hlt]
    refine ⟨es[id.toNat], ?_, by simp, ?_⟩
    · simp only [Node.endpoint, he, Option.getD_some]
      rw [if_neg (by omega), if_neg (by omega), hg]
    · rw [hid _ _ hg]; omega
  · intro h
    have hg : es[id.toNat]? = none := List.getElem?_eq_none (by omega)
    simp only [Node.endpoint, he, Option.getD_some]
    rw [if_neg (by omega), if_neg (by omega), hg]
  · intro h
    simp only [Node.endpoint, he, Option.getD_some]
    rw [if_pos h]

example : ∀ (i : Nat) (e : Endpoint), ((exNode.endpoints.getD [])[i]? = some e) → e.id = (i : Int) + 1 := by
  intro i e h
  match i with
  | 0 => cases h; rfl
  | 1 => cases h; rfl
  | i + 2 => simp [exNode] at h

/-! ## C28 -/

/-- Encapsulation of a list of commands. -/
def encapAll (ep : Int) : List (List UInt8) → Res (List (List UInt8))
  | [] => .ok []
  | m :: r => do
    let x ← encapEncode m ep
    let xs ← encapAll ep r
    return x :: xs

/-- C28.  Endpoint commands send exactly the encapsulation of what the node's own command sends, and
never fail, for every endpoint that is linked to its node. -/
theorem C28_endpoint_commands (undef : Float64 → UInt8) (n : Node) (e : Endpoint)
    (hl : e.linked = true) (v : Float64) :
    e.on undef n = encapAll e.id (n.on undef) ∧ e.off undef n = encapAll e.id (n.off undef) ∧
    e.level undef n v = encapAll e.id (n.level undef v) ∧
    (∃ r, e.on undef n = .ok r) ∧ (∃ r, e.off undef n = .ok r) ∧ ∃ r, e.level undef n v = .ok r := by
  refine ⟨?_, ?_, ?_, ?_, ?_, ?_⟩
  · unfold Endpoint.on Node.on Endpoint.owner
    rw [hl]
    by_cases h1 : n.hasCommand ccSwitchBinary = true
    · simp [h1, bind, Except.bind]; rfl
    · by_cases h2 : n.hasCommand ccSwitchMultilevel = true
      · simp [h1, h2, bind, Except.bind]; rfl
      · simp [h1, h2, bind, Except.bind]; rfl
  · unfold Endpoint.off Node.off Endpoint.owner
    rw [hl]
    by_cases h1 : n.hasCommand ccSwitchBinary = true
    · simp [h1, bind, Except.bind]; rfl
    · by_cases h2 : n.hasCommand ccSwitchMultilevel = true
      · simp [h1, h2, bind, Except.bind]; rfl
      · simp [h1, h2, bind, Except.bind]; rfl
  · unfold Endpoint.level Node.level Endpoint.owner
    rw [hl]
    by_cases h2 : n.hasCommand ccSwitchMultilevel = true
    · simp [h2, bind, Except.bind]; rfl
    · simp [h2, bind, Except.bind]; rfl
  · unfold Endpoint.on Endpoint.owner
    rw [hl]
    by_cases h1 : n.hasCommand ccSwitchBinary = true
    · simp [h1, bind, Except.bind]; exact ⟨_, rfl⟩
    · by_cases h2 : n.hasCommand ccSwitchMultilevel = true
      · simp [h1, h2, bind, Except.bind]; exact ⟨_, rfl⟩
      · simp [h1, h2, bind, Except.bind]; exact ⟨_, rfl⟩
  · unfold Endpoint.off Endpoint.owner
    rw [hl]
    by_cases h1 : n.hasCommand ccSwitchBinary = true
    · simp [h1, bind, Except.bind]; exact ⟨_, rfl⟩
    · by_cases h2 : n.hasCommand ccSwitchMultilevel = true
      · simp [h1, h2, bind, Except.bind]; exact ⟨_, rfl⟩
      · simp [h1, h2, bind, Except.bind]; exact ⟨_, rfl⟩
  · unfold Endpoint.level Endpoint.owner
    rw [hl]
    by_cases h2 : n.hasCommand ccSwitchMultilevel = true
    · simp [h2, bind, Except.bind]; exact ⟨_, rfl⟩
    · simp [h2, bind, Except.bind]; exact ⟨_, rfl⟩

/-- C28 spelled out: what an endpoint sends decapsulates to what its node sends, for that endpoint. -/
theorem C28_decapsulates (undef : Float64 → UInt8) (n : Node) (e : Endpoint)
    (hl : e.linked = true) (v : Float64) (h0 : 0 ≤ e.id) (h1 : e.id ≤ 255) (b : UInt8)
    (hb : (b.toNat : Int) = e.id) :
    (∃ r, e.on undef n = .ok r ∧ r.map decap = (n.on undef).map fun m => some (m, b)) ∧
    (∃ r, e.off undef n = .ok r ∧ r.map decap = (n.off undef).map fun m => some (m, b)) ∧
    (∃ r, e.level undef n v = .ok r ∧
      r.map decap = (n.level undef v).map fun m => some (m, b)) := by
  have key : ∀ l : List (List UInt8), (∀ m ∈ l, 3 ≤ m.length) →
      ∃ r, encapAll e.id l = .ok r ∧ r.map decap = l.map fun m => some (m, b) := by
    intro l hl
    induction l with
    | nil => exact ⟨[], rfl, rfl⟩
    | cons m t ih =>
      obtain ⟨r, h2, h3⟩ := ih (fun x hx => hl x (by simp [hx]))
      obtain ⟨x, b', h4, h5, h6, -⟩ := C24_lossless m e.id (hl m (by simp)) h0 h1
      have : b' = b := by
        apply UInt8.toNat_inj.1; omega
      subst this
      refine ⟨x :: r, ?_, by simp [h5, h3]⟩
      simp [encapAll, h4, h2, bind, Except.bind, pure, Except.pure]
  obtain ⟨a1, a2, a3, -⟩ := C28_endpoint_commands undef n e hl v
  rw [a1, a2, a3]
  refine ⟨key _ ?_, key _ ?_, key _ ?_⟩
  · intro m hm
    unfold Node.on at hm
    split at hm
    · simp at hm; subst hm; simp [switchBinaryEncode]
    · split at hm <;> simp at hm; subst hm; simp [switchMultilevelEncode]
  · intro m hm
    unfold Node.off at hm
    split at hm
    · simp at hm; subst hm; simp [switchBinaryEncode]
    · split at hm <;> simp at hm; subst hm; simp [switchMultilevelEncode]
  · intro m hm
    unfold Node.level at hm
    split at hm <;> simp at hm; subst hm; simp [switchMultilevelEncode]

example : ((exNode.endpoints.getD [])[1]?).map (fun e => e.linked) = some true := by decide

end Verif.Props
