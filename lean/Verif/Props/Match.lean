import Verif.Lemmas.Match
import Verif.Props.Reader
import Verif.Props.Commands

/-
C29–C32: matching received frames with outstanding requests.
-/

set_option linter.unusedSimpArgs false

namespace Verif.Props

open Verif.Go Verif.Model Verif.Spec Verif.Lemmas

/-! ## C29 -/

/-- C29 on buffers of every length: whatever buffer is reported as a match has the request's
function, node, class and report at the positions where a command-handler frame carries them. -/
theorem C29_sound_buffer (data : List UInt8) (er : UInt8) (p : Pkg) (m : List UInt8)
    (hp : newSendPackage data er = .ok p) (h : p.match_ m = .ok true) :
    (Agrees (reqFunction data) m[3]? ∨ (reqFunction data = 0x13 ∧ m[3]? = some 0x04)) ∧
    (reqFunction data ≠ 0x41 → Agrees (reqNode data) m[5]? ∧ Agrees (reqClass data) m[7]? ∧
      Agrees er m[8]?) := by
  obtain ⟨p', hp', h1, h2, h3, h4, -⟩ := newSendPackage_ok data er
  rw [hp] at hp'; cases hp'
  have := match_true h
  rwa [h1, h2, h3, h4] at this

/-- C29 and its converse, for every frame that carries a command (at least 7 body bytes), whatever
follows it in the buffer: it completes exactly the requests it answers. -/
theorem C29_match_iff_answers_partial (data : List UInt8) (er : UInt8) (body f tail : List UInt8)
    (hf : IsFrame body f) (hl : 7 ≤ body.length) :
    ∃ p b, newSendPackage data er = .ok p ∧ p.match_ (zeroed f ++ tail) = .ok b ∧
      (b = true ↔ Answers data er body) := by
  obtain ⟨p, hp, h1, h2, h3, h4, -⟩ := newSendPackage_ok data er
  refine ⟨p, _, hp, match_long p _ ?_, ?_⟩
  · rw [List.length_append, zeroed_length, frame_length hf]; omega
  · unfold matchDec
    rw [h1, h2, h3, h4]
    rw [seen_get hf tail (i := 1) (by omega), seen_get hf tail (i := 3) (by omega),
      seen_get hf tail (i := 5) (by omega), seen_get hf tail (i := 6) (by omega)]
    unfold Answers Agrees
    simp only [Bool.and_eq_true, Bool.or_eq_true, decide_eq_true_eq]
    constructor
    · rintro ⟨ha, hb⟩
      refine ⟨ha, fun hne => ?_⟩
      rcases hb with hb | ⟨⟨h5, h7⟩, h8⟩
      · exact absurd hb hne
      · exact ⟨h5, h7, h8⟩
    · rintro ⟨ha, hb⟩
      refine ⟨ha, ?_⟩
      by_cases hne : reqFunction data = 0x41
      · exact .inl hne
      · obtain ⟨h5, h7, h8⟩ := hb hne
        exact .inr ⟨⟨h5, h7⟩, h8⟩

example : IsFrame [0x00, 0x04, 0x00, 0x02, 0x03, 0x25, 0x03, 0xFF] exReport ∧
    7 ≤ ([0x00, 0x04, 0x00, 0x02, 0x03, 0x25, 0x03, 0xFF] : List UInt8).length ∧
    Answers [0x13, 0x02, 0x03, 0x25, 0x02, 0x25] 0x03
      [0x00, 0x04, 0x00, 0x02, 0x03, 0x25, 0x03, 0xFF] :=
  ⟨⟨0x09, 0x2A, rfl, rfl, by decide⟩, by decide, .inr ⟨rfl, rfl⟩,
    fun _ => ⟨.inr rfl, .inr rfl, .inr rfl⟩⟩

/-- The matcher looks beyond a short frame: a seven-byte SendData frame followed by two stray bytes
completes a request for a binary switch report of node 4, although the frame carries no command
class at all. -/
theorem C29_violated_short_frame :
    ∃ (data : List UInt8) (er : UInt8) (p : Pkg) (body f tail : List UInt8),
      IsFrame body f ∧ GoodFrame f ∧ newSendPackage data er = .ok p ∧
      p.match_ (zeroed f ++ tail) = .ok true ∧ ¬ Answers data er body := by
  refine ⟨[0x13, 0x04, 0x03, 0x25, 0x02, 0x25], 0x03, _, [0x00, 0x13, 0x01, 0x04],
    [0x01, 0x05, 0x00, 0x13, 0x01, 0x04, 0xFC ^^^ 0x10], [0x25, 0x03],
    ⟨0x05, _, rfl, rfl, by decide⟩,
    ⟨[0x00, 0x13, 0x01, 0x04], ⟨0x05, _, rfl, rfl, by decide⟩,
      .inr (.inr (.inr ⟨0x00, 0x13, [0x01, 0x04], rfl, by decide, by decide, by decide⟩))⟩,
    rfl, by decide, ?_⟩
  intro h
  have := (h.2 (by decide)).2.1
  simp [Agrees, reqClass] at this

/-! ## C30 -/

/-- C30, reports: the reply of the addressed node, of the requested class and the expected report,
completes the request, whatever else it carries and whatever follows it in the buffer. -/
theorem C30_report_matched (node n cls cmd er : UInt8) (args rest tail f : List UInt8) (ty rx n' : UInt8)
    (hargs : args ≠ []) (her : er = 0 ∨ er = cmd)
    (hf : IsFrame (ty :: 0x04 :: rx :: node :: n' :: cls :: cmd :: rest) f) :
    ∃ p, newSendPackage (0x13 :: node :: n :: cls :: args) er = .ok p ∧
      p.match_ (zeroed f ++ tail) = .ok true := by
  obtain ⟨p, b, hp, hm, hb⟩ := C29_match_iff_answers_partial (0x13 :: node :: n :: cls :: args) er
    _ f tail hf (by simp)
  have : Answers (0x13 :: node :: n :: cls :: args) er
      (ty :: 0x04 :: rx :: node :: n' :: cls :: cmd :: rest) := by
    refine ⟨.inr ⟨rfl, rfl⟩, fun _ => ⟨.inr rfl, ?_, ?_⟩⟩
    · right
      have : 0 < args.length := List.length_pos_iff.2 hargs
      simp [reqClass, this]
    · rcases her with h | h
      · exact .inl h
      · right; simp [h]
  rw [hb.2 this] at hm
  exact ⟨p, hp, hm⟩

/-- C30, protocol info and discovery: a reply to the function asked for completes the request. -/
theorem C30_function_matched (fn : UInt8) (node : Option UInt8) (body f tail : List UInt8) (ty : UInt8)
    (hreq : fn = 0x41 ∨ (fn = 0x02 ∧ node = none))
    (hf : IsFrame (ty :: fn :: body) f) (hl : 5 ≤ body.length) :
    ∃ p, newSendPackage (fn :: node.toList) 0 = .ok p ∧
      p.match_ (zeroed f ++ tail) = .ok true := by
  obtain ⟨p, b, hp, hm, hb⟩ := C29_match_iff_answers_partial (fn :: node.toList) 0
    _ f tail hf (by simp; omega)
  have : Answers (fn :: node.toList) 0 (ty :: fn :: body) := by
    refine ⟨.inl (.inr rfl), fun hne => ?_⟩
    rcases hreq with h | ⟨h, h'⟩
    · exact absurd h hne
    · subst h'
      exact ⟨.inl rfl, .inl rfl, .inl rfl⟩
  rw [hb.2 this] at hm
  exact ⟨p, hp, hm⟩

/-- The requests of C30 are the ones the library sends: the raw commands of
manufacurer_specific.go, request_endpoints.go and request_states.go, for every node. -/
theorem C30_library_requests (node : Int) (c : List UInt8)
    (hc : c = [0x72, 0x04, 0x00] ∨ c = [0x60, 0x07, 0x25] ∨ c = [0x31, 0x01, 0x25] ∨
      c = [0x25, 0x02, 0x25] ∨ c = [0x26, 0x02, 0x25]) :
    ∃ n cls args, rawEncode node c = 0x13 :: intToByte node :: n :: cls :: args ∧ args ≠ [] ∧
      c.head? = some cls := by
  rcases hc with rfl | rfl | rfl | rfl | rfl <;>
    exact ⟨_, _, _, rfl, List.cons_ne_nil _ _, rfl⟩

example : IsFrame ([0x00, 0x04, 0x00, 0x02, 0x03, 0x25, 0x03, 0xFF]) exReport ∧
    ([0x02, 0x25] : List UInt8) ≠ [] := ⟨⟨0x09, 0x2A, rfl, rfl, by decide⟩, by decide⟩

/-! ## C31 -/

/-- C31 for buffers of at least nine bytes: matching any request returns normally. -/
theorem C31_no_crash_partial (p : Pkg) (m : List UInt8) (h : 9 ≤ m.length) :
    ∃ b, p.match_ m = .ok b := ⟨_, match_long p m h⟩

/-- C31 for every request that names no node, and for every protocol-info request: no crash on any
buffer that got as far as the matcher (parsing already requires four bytes). -/
theorem C31_no_crash_unaddressed (p : Pkg) (m : List UInt8) (h : 4 ≤ m.length)
    (hp : p.function = 0x41 ∨ (p.node = 0 ∧ p.commandclass = 0 ∧ p.expectedReport = 0)) :
    ∃ b, p.match_ m = .ok b := by
  unfold Pkg.match_
  rw [fnMatch_in (by omega)]
  rcases hp with h41 | ⟨h1, h2, h3⟩
  · rw [if_pos (show p.function = fnGetNodeProtocolInfo from h41)]
    exact ⟨_, orReject_in (by omega) _ _⟩
  · rw [h1, h2, h3]
    by_cases h41 : p.function = 0x41
    · rw [if_pos (show p.function = fnGetNodeProtocolInfo from h41)]
      exact ⟨_, orReject_in (by omega) _ _⟩
    · rw [if_neg (show ¬ p.function = fnGetNodeProtocolInfo from h41)]
      exact ⟨_, orReject_in (by omega) _ true⟩

/-- C31 is false in general: a well-formed frame that parses without trouble crashes the matcher
when a switch command to node 4 is outstanding. -/
theorem C31_violated :
    ∃ (f : List UInt8) (p : Pkg) (acts : List Act) (rest : Slice),
      GoodFrame f ∧ newSendPackage (switchBinaryEncode 0x04 true) 0 = .ok p ∧
      iter ⟨f, []⟩ = .ok (.done acts rest) ∧
      acts = [.frame ⟨zeroed f, []⟩ f.length (loneMsg f), .ack] ∧
      p.match_ (zeroed f) = .error .index := by
  refine ⟨[0x01, 0x05, 0x00, 0x13, 0x01, 0x04, 0xEC], _, _, _,
    ⟨[0x00, 0x13, 0x01, 0x04], ⟨0x05, _, rfl, rfl, by decide⟩,
      .inr (.inr (.inr ⟨0x00, 0x13, [0x01, 0x04], rfl, by decide, by decide, by decide⟩))⟩,
    rfl, by rfl, by decide +kernel, by decide⟩

/-! ## C32 -/

/-- The requests of a table that a received buffer completes. -/
def completes (tbl : List Pkg) (m : List UInt8) : List Pkg :=
  tbl.filter fun p => decide (p.match_ m = .ok true)

/-- C32, what holds: a protocol-info reply completes protocol-info requests only (or requests with
function 0, which the library never makes), so with a single protocol-info request outstanding it
completes exactly that one. -/
theorem C32_protocol_info_only_partial (tbl : List Pkg) (body f tail : List UInt8) (ty : UInt8)
    (hf : IsFrame (ty :: 0x41 :: body) f) (hne : ∀ p ∈ tbl, p.function ≠ 0)
    (p : Pkg) (hone : tbl.filter (fun q => decide (q.function = 0x41)) = [p]) :
    completes tbl (zeroed f ++ tail) = [p] := by
  rw [← hone]
  unfold completes
  apply List.filter_congr
  intro q hq
  have h3 : (zeroed f ++ tail)[3]? = some 0x41 := by
    rw [seen_get hf tail (i := 1) (by simp)]; rfl
  by_cases h41 : q.function = 0x41
  · have hlen : 3 < (zeroed f ++ tail).length := by
      rw [List.length_append, zeroed_length, frame_length hf]; simp; omega
    have : q.match_ (zeroed f ++ tail) = .ok true := by
      unfold Pkg.match_
      rw [fnMatch_in hlen, if_pos (show q.function = fnGetNodeProtocolInfo from h41),
        orReject_in hlen, h3, h41]
      rfl
    simp [this, h41]
  · have : ¬ q.match_ (zeroed f ++ tail) = .ok true := by
      intro hm
      rcases (match_true hm).1 with (h | h) | ⟨-, h⟩
      · exact hne q hq h
      · rw [h3] at h; exact h41 (Option.some.inj h).symm
      · rw [h3] at h; exact absurd h (by decide)
    simp [this, h41]

example : ∃ p q, newSendPackage [0x41, 0x02] 0 = .ok p ∧
    newSendPackage (switchBinaryEncode 0x04 true) 0 = .ok q ∧
    (∀ x ∈ [p, q], x.function ≠ 0) ∧
    [p, q].filter (fun q => decide (q.function = 0x41)) = [p] := by
  refine ⟨_, _, rfl, rfl, by decide, by decide⟩

/-- C32 is false: with requests for nodes 2 and 3 outstanding, one reply completes both. -/
theorem C32_violated (body f tail : List UInt8) (ty : UInt8)
    (hf : IsFrame (ty :: 0x41 :: body) f) :
    ∃ p q, newSendPackage [0x41, 0x02] 0 = .ok p ∧ newSendPackage [0x41, 0x03] 0 = .ok q ∧
      p ≠ q ∧ completes [p, q] (zeroed f ++ tail) = [p, q] := by
  have hlen : 3 < (zeroed f ++ tail).length := by
    rw [List.length_append, zeroed_length, frame_length hf]; simp; omega
  have h3 : (zeroed f ++ tail)[3]? = some 0x41 := by
    rw [seen_get hf tail (i := 1) (by simp)]; rfl
  have key : ∀ q : Pkg, q.function = 0x41 → q.match_ (zeroed f ++ tail) = .ok true := by
    intro q h41
    unfold Pkg.match_
    rw [fnMatch_in hlen, if_pos (show q.function = fnGetNodeProtocolInfo from h41),
      orReject_in hlen, h3, h41]
    rfl
  obtain ⟨p, hp, h1, h2, -⟩ := newSendPackage_ok [0x41, 0x02] 0
  obtain ⟨q, hq, h1', h2', -⟩ := newSendPackage_ok [0x41, 0x03] 0
  refine ⟨p, q, hp, hq, ?_, ?_⟩
  · intro he; rw [he, h2'] at h2; exact absurd h2 (by decide)
  · simp [completes, key p h1, key q h1']

end Verif.Props
