import Verif.Lemmas.Stream
import Verif.Spec.Match

set_option linter.unusedSimpArgs false

namespace Verif.Lemmas

open Verif.Go Verif.Model Verif.Spec

theorem compileMessage_ok (data : List UInt8) : ∃ m, compileMessage data = .ok m := by
  unfold compileMessage
  have : ∃ g, generateChecksum ((([0x00, 0x00] ++ data ++ [0x00] : List UInt8)).set 0
      (toByte ((([0x00, 0x00] ++ data ++ [0x00] : List UInt8)).length - 1))) = .ok g := by
    simp [generateChecksum]
  obtain ⟨g, hg⟩ := this
  simp only [hg, bind_ok]
  exact ⟨_, rfl⟩

theorem newSendPackage_ok (data : List UInt8) (er : UInt8) :
    ∃ p, newSendPackage data er = .ok p ∧ p.function = reqFunction data ∧
      p.node = reqNode data ∧ p.commandclass = reqClass data ∧ p.expectedReport = er ∧
      compileMessage data = .ok p.message := by
  obtain ⟨m, hm⟩ := compileMessage_ok data
  refine ⟨_, by unfold newSendPackage; rw [hm, bind_ok]; rfl, ?_, ?_, ?_, rfl, hm⟩
  · cases data <;> simp [reqFunction]
  · match data with
    | [] | [_] => simp [reqNode]
    | a :: b :: r => simp [reqNode]
  · unfold reqClass
    match data with
    | [] | [_] | [_, _] | [_, _, _] => simp
    | a :: b :: c :: d :: r => simp

/-- `MatchByteAt` in range. -/
theorem matchByteAt_in {m : List UInt8} {b : UInt8} {i : Nat} (h : i < m.length) :
    matchByteAt m b i = .ok (decide (b = 0) || decide (m[i]? = some b)) := by
  unfold matchByteAt
  by_cases hb : b = 0
  · simp [hb]
  · rw [if_neg hb, if_neg (by omega)]
    have : m[i]? = some m[i] := by simp [h]
    rw [this]
    simp [hb]
    rfl

theorem matchByteAt_true {m : List UInt8} {b : UInt8} {i : Nat} (h : matchByteAt m b i = .ok true) :
    Agrees b m[i]? := by
  unfold matchByteAt at h
  split at h
  · left; assumption
  · split at h
    · cases h
    · cases hm : m[i]? with
      | none => rw [hm] at h; cases h
      | some x =>
        rw [hm] at h
        simp at h
        right; rw [h]

theorem logIndex_in {m : List UInt8} {i : Nat} (h : i < m.length) : logIndex m i = .ok () := by
  unfold logIndex
  have : m[i]? = some m[i] := by simp [h]
  rw [this]

/-- The decision `Match` makes on long enough buffers. -/
def matchDec (c : Pkg) (m : List UInt8) : Bool :=
  (decide (c.function = 0) || decide (m[3]? = some c.function) ||
    (decide (c.function = 0x13) && decide (m[3]? = some 0x04))) &&
  (decide (c.function = 0x41) ||
    ((decide (c.node = 0) || decide (m[5]? = some c.node)) &&
     (decide (c.commandclass = 0) || decide (m[7]? = some c.commandclass)) &&
     (decide (c.expectedReport = 0) || decide (m[8]? = some c.expectedReport))))

theorem orReject_in {m : List UInt8} {i : Nat} (h : i < m.length) (b : Bool) (k : Bool) :
    orReject m i (.ok b) (.ok k) = .ok (b && k) := by
  unfold orReject
  rw [logIndex_in h]
  cases b <;> rfl

theorem fnMatch_in {c : Pkg} {m : List UInt8} (h : 3 < m.length) :
    c.fnMatch m = .ok (decide (c.function = 0) || decide (m[3]? = some c.function) ||
    (decide (c.function = 0x13) && decide (m[3]? = some 0x04))) := by
  unfold Pkg.fnMatch
  rw [matchByteAt_in h, matchByteAt_in h]
  show (if _ then _ else _) = _
  by_cases h1 : (decide (c.function = 0) || decide (m[3]? = some c.function)) = true
  · rw [if_pos h1, h1]; rfl
  · rw [if_neg h1]
    simp only [Bool.not_eq_true] at h1
    rw [h1]
    by_cases h2 : c.function = 0x13
    · rw [if_pos (show c.function = fnSendData from h2)]
      simp [h2, fnApplicationCommandHandler]
      rfl
    · rw [if_neg (show ¬ c.function = fnSendData from h2)]
      simp [h2]

theorem match_long (c : Pkg) (m : List UInt8) (h : 9 ≤ m.length) :
    c.match_ m = .ok (matchDec c m) := by
  unfold Pkg.match_ matchDec
  rw [fnMatch_in (by omega),
    matchByteAt_in (b := c.node) (by omega : 5 < m.length),
    matchByteAt_in (b := c.commandclass) (by omega : 7 < m.length),
    matchByteAt_in (b := c.expectedReport) (by omega : 8 < m.length),
    orReject_in (by omega), orReject_in (by omega), orReject_in (by omega)]
  by_cases h41 : c.function = 0x41
  · rw [if_pos (show c.function = fnGetNodeProtocolInfo from h41), orReject_in (by omega)]
    simp [h41]
  · rw [if_neg (show ¬ c.function = fnGetNodeProtocolInfo from h41), orReject_in (by omega)]
    simp [h41, Bool.and_assoc]

theorem orReject_true {m : List UInt8} {i : Nat} {a k : Res Bool}
    (h : orReject m i a k = .ok true) : a = .ok true ∧ k = .ok true := by
  unfold orReject at h
  cases a with
  | error e => cases h
  | ok b =>
    cases b with
    | true => exact ⟨rfl, h⟩
    | false =>
      exfalso
      revert h
      show (Except.bind (logIndex m i) fun _ => Except.ok false) = .ok true → False
      cases logIndex m i <;> intro h <;> cases h

/-- `Match` answering true, for buffers of any length. -/
theorem match_true {c : Pkg} {m : List UInt8} (h : c.match_ m = .ok true) :
    (Agrees c.function m[3]? ∨ (c.function = 0x13 ∧ m[3]? = some 0x04)) ∧
    (c.function ≠ 0x41 → Agrees c.node m[5]? ∧ Agrees c.commandclass m[7]? ∧
      Agrees c.expectedReport m[8]?) := by
  unfold Pkg.match_ at h
  obtain ⟨h1, h⟩ := orReject_true h
  constructor
  · unfold Pkg.fnMatch at h1
    cases hb : matchByteAt m c.function 3 with
    | error e => rw [hb] at h1; cases h1
    | ok b =>
      rw [hb] at h1
      cases b with
      | true => exact .inl (matchByteAt_true hb)
      | false =>
        right
        have h1' : (if c.function = fnSendData then
          matchByteAt m fnApplicationCommandHandler 3 else .ok false) = .ok true := h1
        by_cases hf : c.function = fnSendData
        · rw [if_pos hf] at h1'
          rcases matchByteAt_true h1' with h | h
          · exact absurd h (by decide)
          · exact ⟨hf, h⟩
        · rw [if_neg hf] at h1'; cases h1'
  · intro hne
    rw [if_neg (show ¬ c.function = fnGetNodeProtocolInfo from hne)] at h
    obtain ⟨h5, h⟩ := orReject_true h
    obtain ⟨h7, h⟩ := orReject_true h
    obtain ⟨h8, h⟩ := orReject_true h
    exact ⟨matchByteAt_true h5, matchByteAt_true h7, matchByteAt_true h8⟩

/-- The buffer positions of a frame seen by the matcher are the positions of its body. -/
theorem seen_get {body f : List UInt8} (hf : IsFrame body f) (tail : List UInt8) {i : Nat}
    (hi : i < body.length) : (zeroed f ++ tail)[i + 2]? = body[i]? := by
  obtain ⟨len, ck, rfl, -, -⟩ := hf
  have : zeroed (0x01 :: len :: (body ++ [ck])) = 0x01 :: len :: (body ++ [0x00]) := by
    simp [zeroed, List.set_append]
  rw [this]
  simp [List.getElem?_append, hi]

theorem frame_length {body f : List UInt8} (hf : IsFrame body f) : f.length = body.length + 3 := by
  obtain ⟨len, ck, rfl, -, -⟩ := hf
  simp

theorem zeroed_length (f : List UInt8) : (zeroed f).length = f.length := by simp [zeroed]

end Verif.Lemmas
