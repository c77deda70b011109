import Verif.Lemmas.Reader
import Verif.Spec.Stream

set_option linter.unusedSimpArgs false

namespace Verif.Lemmas

open Verif.Go Verif.Model Verif.Spec

theorem isFrame_ne_nil {body f : List UInt8} (h : IsFrame body f) : f ≠ [] := by
  obtain ⟨L, ck, rfl, -, -⟩ := h; simp

theorem callbackOf_core (m : Option Message) : (callbackOf m).map core = callbackOf m := by
  unfold callbackOf
  split
  · split <;> rfl
  · rfl

/-- The loop on a buffer that starts with a good frame. -/
theorem drain_frame (f tail sp : List UInt8) (hf : GoodFrame f) :
    ∃ as, drain ⟨f ++ tail, sp⟩ = (drain ⟨tail, sp⟩).map (fun x => (as ++ x.1, x.2)) ∧
      as.map core = (Tok.frame f).expected := by
  obtain ⟨body, ⟨L, ck, rfl, hl, hck⟩, hs⟩ := hf
  have e : 0x01 :: L :: (body ++ [ck]) ++ tail = 0x01 :: L :: (body ++ ck :: tail) := by simp
  rw [e]
  -- decoding in place
  have hok : ∃ r, newMessage ⟨0x01 :: L :: (body ++ [0x00]), []⟩ = .ok r := by
    rw [newMessage_ok_iff]
    rcases hs with ⟨ty, rx, node, n, rest, rfl, h1, h2, h3⟩ | ⟨ty, a, b, n, rest, rfl, h1, h2⟩ |
      ⟨ty, rest, rfl, h1⟩ | ⟨ty, fn, rest, rfl, h1, h2, h3⟩
    · simp [Explodes, Slice.cap]; omega
    · simp [Explodes, Slice.cap]; omega
    · simp [Explodes, Slice.cap]
    · simp [Explodes, Slice.cap, h1, h2]
  obtain ⟨r, hr⟩ := hok
  have hr' := (newMessage_sane L body tail sp hs).trans hr
  have hd := decode_complete L ck body tail sp hl
  rw [if_pos hck, hr'] at hd
  have hd1 : ∃ e, decode ⟨0x01 :: L :: (body ++ ck :: tail), sp⟩ =
      .ok (⟨(body.length + 3 : Nat), r.toOption, e⟩,
        ⟨0x01 :: L :: (body ++ 0x00 :: tail), sp⟩) := by
    rw [hd, hl]; cases r <;> exact ⟨_, rfl⟩
  obtain ⟨e1, hd1⟩ := hd1
  have hi := iter_frame _ _ sp _ _ _ hd1 (by omega) (by simp)
  have e2 : (0x01 :: L :: (body ++ 0x00 :: tail)).drop (body.length + 3) = tail := by
    simp [List.drop_append]
  rw [e2] at hi
  -- decoding alone
  have hlone : loneMsg (0x01 :: L :: (body ++ [ck])) = r.toOption := by
    have := decode_complete L ck body [] [] hl
    rw [if_pos hck, hr] at this
    unfold loneMsg
    rw [this]
    cases r <;> rfl
  refine ⟨[.frame ⟨0x01 :: L :: (body ++ 0x00 :: tail), sp⟩ (body.length + 3) r.toOption] ++
    callbackOf r.toOption ++ [.ack], ?_, ?_⟩
  · rw [drain_eq _ (by simp), hi]
  · have e3 : (0x01 :: L :: (body ++ 0x00 :: tail)).take (body.length + 3) =
        zeroed (0x01 :: L :: (body ++ [ck])) := by
      simp [zeroed, List.take_append, List.take_of_length_le]
    have e4 : (0x01 :: L :: (body ++ [ck])).length = body.length + 3 := by simp
    simp only [List.map_append, List.map_cons, List.map_nil, callbackOf_core, Tok.expected, hlone,
      core, e3, e4]
    congr 1

/-- The loop on an incomplete frame. -/
theorem drain_prefix (f p q sp : List UInt8) (hf : GoodFrame f) (hpq : f = p ++ q) (hq : q ≠ []) :
    drain ⟨p, sp⟩ = .ok ([], ⟨p, sp⟩) := by
  by_cases hp : p = []
  · subst hp; exact drain_empty sp
  obtain ⟨body, ⟨L, ck, rfl, hl, hck⟩, -⟩ := hf
  match p, hp with
  | [a], _ =>
    have : a = 0x01 := by simp at hpq; exact hpq.1.symm
    subst this
    rw [drain_eq _ (by simp), iter_wait [0x01] sp 2 (decode_sof_short sp) (by simp) (by simp)]
  | a :: b :: r, _ =>
    simp at hpq
    obtain ⟨rfl, rfl, h3⟩ := hpq
    have h4 := congrArg List.length h3
    have h5 : 0 < q.length := List.length_pos_iff.2 hq
    simp at h4
    rw [drain_eq _ (by simp), iter_wait _ sp _ (decode_incomplete L r sp (by omega))
      (by simp; omega) (by omega)]

/-- The loop on a noise byte. -/
theorem drain_noise (b : UInt8) (tail sp : List UInt8) (h : (Tok.noise b).Ok) :
    drain ⟨b :: tail, sp⟩ = drain ⟨tail, sp⟩ := by
  rw [drain_eq _ (by simp), iter_drop b _ tail sp _ _ (decode_junk b tail sp h) rfl]

theorem newMessage_lone (b : UInt8) (sp : List UInt8) :
    newMessage ⟨[b], sp⟩ = .ok (.ok (ctrlMsg b)) := rfl

/-- The loop on a lone control byte. -/
theorem drain_ctrl (b : UInt8) (sp : List UInt8) (h : b = 0x06 ∨ b = 0x15 ∨ b = 0x18) :
    drain ⟨[b], sp⟩ = .ok ([.ctrl b (some (ctrlMsg b))], ⟨[], sp⟩) := by
  have hd := decode_ctrl b [] sp h
  rw [newMessage_lone] at hd
  rw [drain_eq _ (by simp), iter_ctrl b [] sp (some (ctrlMsg b)) none hd]
  simp only [drain_empty]
  rfl

theorem bytes_ne_nil {t : Tok} (h : t.Ok) : t.bytes ≠ [] := by
  cases t with
  | frame f => obtain ⟨body, hf, -⟩ := h; exact isFrame_ne_nil hf
  | noise b => simp [Tok.bytes]

/-- What is left over after the loop, relative to the part of the stream not yet consumed. -/
def Proper (p : List UInt8) : List Tok → Prop
  | [] => p = []
  | t :: _ => p.length < t.bytes.length

/-- The loop on a prefix `v` of a stream of pieces optionally followed by one control byte. -/
theorem drain_stream (sp : List UInt8) (last : Option UInt8)
    (hlast : ∀ c, last = some c → c = 0x06 ∨ c = 0x15 ∨ c = 0x18)
    (ts : List Tok) (hts : ∀ t ∈ ts, t.Ok) (v q : List UInt8)
    (h : v ++ q = bytesOf ts ++ last.toList) :
    (∃ as, drain ⟨v, sp⟩ = .ok (as, ⟨[], sp⟩) ∧ q = [] ∧
        as.map core = (Burst.mk ts last).expected) ∨
    (∃ (k : Nat) (as : List Act) (p : List UInt8), drain ⟨v, sp⟩ = .ok (as, ⟨p, sp⟩) ∧
      as.map core = expectedAll (ts.take k) ∧
      p ++ q = bytesOf (ts.drop k) ++ last.toList ∧ q ≠ []) := by
  induction ts generalizing v with
  | nil =>
    match v with
    | [] =>
      by_cases hq : q = []
      · left
        refine ⟨[], drain_empty sp, hq, ?_⟩
        simp [bytesOf, hq] at h
        simp [Burst.expected, expectedAll, h]
      · right
        exact ⟨0, [], [], drain_empty sp, by simp [expectedAll], by simpa using h, hq⟩
    | b :: v' =>
      cases last with
      | none => simp [bytesOf] at h
      | some c =>
        simp [bytesOf] at h
        obtain ⟨rfl, rfl, rfl⟩ := h
        left
        refine ⟨_, drain_ctrl b sp (hlast b rfl), rfl, ?_⟩
        simp [Burst.expected, expectedAll, core]
  | cons t ts ih =>
    have ht : t.Ok := hts t (by simp)
    have hts' : ∀ t ∈ ts, t.Ok := fun x hx => hts x (by simp [hx])
    have hb : bytesOf (t :: ts) = t.bytes ++ bytesOf ts := by simp [bytesOf]
    rw [hb, List.append_assoc] at h
    by_cases hlen : v.length < t.bytes.length
    · -- the first piece is incomplete
      have hq : q ≠ [] := by
        rintro rfl
        have := congrArg List.length h
        simp at this
        omega
      obtain ⟨q', hq1, hq2⟩ : ∃ q', t.bytes = v ++ q' ∧ q' ≠ [] := by
        rcases List.append_eq_append_iff.1 h with ⟨a, h1, h2⟩ | ⟨a, h1, h2⟩
        · refine ⟨a, h1, ?_⟩
          rintro rfl
          simp [h1] at hlen
        · have := congrArg List.length h1
          simp at this
          omega
      right
      refine ⟨0, [], v, ?_, by simp [expectedAll], ?_, hq⟩
      · cases t with
        | frame f => exact drain_prefix f v q' sp ht hq1 hq2
        | noise b =>
          simp [Tok.bytes] at hlen
          subst hlen
          exact drain_empty sp
      · simp [hb, h]
    · -- the first piece is complete
      obtain ⟨v', rfl, h'⟩ : ∃ v', v = t.bytes ++ v' ∧ v' ++ q = bytesOf ts ++ last.toList := by
        rcases List.append_eq_append_iff.1 h with ⟨a, h1, h2⟩ | ⟨a, h1, h2⟩
        · have := congrArg List.length h1
          simp at this
          have ha : a = [] := by
            apply List.eq_nil_of_length_eq_zero; omega
          subst ha
          exact ⟨[], by simpa using h1.symm, by simpa using h2⟩
        · exact ⟨a, h1, h2.symm⟩
      have hstep : ∃ as0, drain ⟨t.bytes ++ v', sp⟩ =
          (drain ⟨v', sp⟩).map (fun x => (as0 ++ x.1, x.2)) ∧ as0.map core = t.expected := by
        cases t with
        | frame f => exact drain_frame f v' sp ht
        | noise b =>
          refine ⟨[], ?_, rfl⟩
          show drain ⟨b :: v', sp⟩ = _
          rw [drain_noise b v' sp ht]
          cases drain ⟨v', sp⟩ <;> rfl
      obtain ⟨as0, hd, hc⟩ := hstep
      rcases ih hts' v' h' with ⟨as, h1, h2, h3⟩ | ⟨k, as, p, h1, h2, h3, h4⟩
      · left
        refine ⟨as0 ++ as, by rw [hd, h1]; rfl, h2, ?_⟩
        simp [Burst.expected, expectedAll, hc, List.map_append] at h3 ⊢
        rw [h3]
      · right
        refine ⟨k + 1, as0 ++ as, p, by rw [hd, h1]; rfl, ?_, by simpa using h3, h4⟩
        simp [expectedAll, hc, List.map_append] at h2 ⊢
        rw [h2]

theorem expectedAll_append (a b : List Tok) :
    expectedAll (a ++ b) = expectedAll a ++ expectedAll b := by
  simp [expectedAll]

/-- All chunks of a history of reads. -/
def chunks (rs : List Read) : List UInt8 := (rs.map Read.chunk).flatten

/-- A burst read in any number of pieces. -/
theorem feed_burst (b : Burst) (hb : b.Ok) (rs : List Read) (p : List UInt8) (sp : List UInt8)
    (haged : ∀ r ∈ rs, r.aged = false) (h : p ++ chunks rs = b.bytes)
    (hne : rs ≠ [] ∨ b = ⟨[], none⟩) :
    ∃ as sp', feed ⟨p, sp⟩ rs = .ok (as, ⟨[], sp'⟩) ∧ as.map core = b.expected := by
  induction rs generalizing p sp b with
  | nil =>
    rcases hne with h1 | rfl
    · exact absurd rfl h1
    · simp [chunks, Burst.bytes, bytesOf] at h
      subst h
      exact ⟨[], sp, rfl, by simp [Burst.expected, expectedAll]⟩
  | cons r rs ih =>
    have hr : r.aged = false := haged r (by simp)
    have hrs : ∀ r ∈ rs, r.aged = false := fun x hx => haged x (by simp [hx])
    have hc : chunks (r :: rs) = r.chunk ++ chunks rs := by simp [chunks]
    rw [hc, ← List.append_assoc] at h
    have happ : appendRead ⟨p, sp⟩ r = ⟨p ++ r.chunk, List.replicate r.spare 0⟩ := by
      simp [appendRead, hr]
    rcases drain_stream (List.replicate r.spare 0) b.last hb.2 b.toks hb.1 _ _ h with
      ⟨as, h1, h2, h3⟩ | ⟨k, as, p', h1, h2, h3, h4⟩
    · -- everything consumed: the remaining reads are empty
      have hrest : ∃ as2 sp2, feed ⟨[], List.replicate r.spare 0⟩ rs = .ok (as2, ⟨[], sp2⟩) ∧
          as2.map core = [] := by
        have := ih ⟨[], none⟩ ⟨by simp, by simp⟩ [] (List.replicate r.spare 0) hrs
          (by simp [h2, Burst.bytes, bytesOf]) (.inr rfl)
        simpa [Burst.expected, expectedAll] using this
      obtain ⟨as2, sp2, h5, h6⟩ := hrest
      refine ⟨as ++ as2, sp2, ?_, by simp [h3, h6]⟩
      simp only [feed, happ, h1, bind_ok, h5]
      rfl
    · have hok : (Burst.mk (b.toks.drop k) b.last).Ok :=
        ⟨fun t ht => hb.1 t (List.mem_of_mem_drop ht), hb.2⟩
      have hne' : rs ≠ [] := by
        rintro rfl
        exact h4 (by simp [chunks])
      obtain ⟨as2, sp2, h5, h6⟩ := ih _ hok p' (List.replicate r.spare 0) hrs h3 (.inl hne')
      refine ⟨as ++ as2, sp2, ?_, ?_⟩
      · simp only [feed, happ, h1, bind_ok, h5]
        rfl
      · rw [List.map_append, h2, h6]
        simp only [Burst.expected]
        rw [← List.append_assoc, ← expectedAll_append, List.take_append_drop]

theorem feed_append (buf : Slice) (rs rs' : List Read) :
    feed buf (rs ++ rs') =
      (feed buf rs >>= fun x => (feed x.2 rs').map fun y => (x.1 ++ y.1, y.2)) := by
  induction rs generalizing buf with
  | nil =>
    simp only [List.nil_append, feed, bind_ok]
    cases feed buf rs' <;> rfl
  | cons r rs ih =>
    simp only [List.cons_append, feed]
    cases drain (appendRead buf r) with
    | error p => rfl
    | ok x =>
      simp only [bind_ok, ih]
      cases feed x.2 rs with
      | error p => rfl
      | ok y =>
        simp only [bind_ok, pure, Except.pure]
        cases hz : feed y.2 rs' with
        | error p => simp [bind, Except.bind, Except.map, hz]
        | ok z => simp [bind, Except.bind, Except.map, hz, List.append_assoc]

end Verif.Lemmas
