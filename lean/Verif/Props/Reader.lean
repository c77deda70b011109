import Verif.Lemmas.Stream

/-
C07–C12 (byte level): frame extraction, acknowledgements, resynchronisation, progress, ageing,
crashes of `Connection.Reader`.
-/

set_option linter.unusedSimpArgs false

namespace Verif.Props

open Verif.Go Verif.Model Verif.Spec Verif.Lemmas

/-! ## C07 -/

/-- C07.  Any burst of good frames (with harmless noise bytes in between and at most one control
byte at the end), cut into reads in any way, with any spare capacities, is processed exactly as
specified frame by frame, and nothing is left in the buffer.  The buffer before the first read is
empty, or is discarded because the first read comes more than 40 ms later. -/
theorem C07_chunk_independent (b : Burst) (hb : b.Ok) (buf : Slice) (r : Read) (rs : List Read)
    (hfirst : buf.vis = [] ∨ r.aged = true) (hrest : ∀ x ∈ rs, x.aged = false)
    (hbytes : ((r :: rs).map Read.chunk).flatten = b.bytes) :
    ∃ as sp, feed buf (r :: rs) = .ok (as, ⟨[], sp⟩) ∧ as.map core = b.expected := by
  have happ : appendRead buf r = appendRead ⟨[], []⟩ { r with aged := false } := by
    rcases hfirst with h | h <;> simp [appendRead, h]
  have hfeed : feed buf (r :: rs) = feed ⟨[], []⟩ ({ r with aged := false } :: rs) := by
    simp only [feed, happ]
  rw [hfeed]
  apply feed_burst b hb _ [] []
  · intro x hx
    rcases List.mem_cons.1 hx with rfl | hx
    · rfl
    · exact hrest x hx
  · simpa [chunks] using hbytes
  · exact .inl (by simp)

/-- C07 over whole sessions: a sequence of bursts, each cut into at least one read; a burst may
start after a gap or not. -/
theorem C07_session (l : List (Burst × Read × List Read)) (buf : Slice) (hbuf : buf.vis = [])
    (h : ∀ x ∈ l, x.1.Ok ∧ (∀ y ∈ x.2.2, y.aged = false) ∧
      ((x.2.1 :: x.2.2).map Read.chunk).flatten = x.1.bytes) :
    ∃ as sp, feed buf (l.map fun x => x.2.1 :: x.2.2).flatten = .ok (as, ⟨[], sp⟩) ∧
      as.map core = (l.map fun x => x.1.expected).flatten := by
  induction l generalizing buf with
  | nil => exact ⟨[], buf.spare, by simp [feed]; rw [← hbuf], rfl⟩
  | cons x l ih =>
    obtain ⟨h1, h2, h3⟩ := h x (by simp)
    obtain ⟨as, sp, h4, h5⟩ := C07_chunk_independent x.1 h1 buf x.2.1 x.2.2 (.inl hbuf) h2 h3
    obtain ⟨as', sp', h6, h7⟩ := ih ⟨[], sp⟩ rfl (fun y hy => h y (by simp [hy]))
    refine ⟨as ++ as', sp', ?_, by simp [h5, h7]⟩
    simp only [List.map_cons, List.flatten_cons]
    rw [feed_append, h4, bind_ok, h6]
    rfl

/-- The frame `01 04 01 13 01 E8` (a SendData response). -/
def exFrame : List UInt8 := [0x01, 0x04, 0x01, 0x13, 0x01, 0xE8]
/-- A binary switch report "on" from node 2. -/
def exReport : List UInt8 := [0x01, 0x09, 0x00, 0x04, 0x00, 0x02, 0x03, 0x25, 0x03, 0xFF, 0x2A]

theorem exFrame_good : GoodFrame exFrame :=
  ⟨[0x01, 0x13, 0x01], ⟨0x04, 0xE8, rfl, rfl, by decide⟩,
    .inr (.inr (.inr ⟨0x01, 0x13, [0x01], rfl, by decide, by decide, by decide⟩))⟩
theorem exReport_good : GoodFrame exReport :=
  ⟨[0x00, 0x04, 0x00, 0x02, 0x03, 0x25, 0x03, 0xFF], ⟨0x09, 0x2A, rfl, rfl, by decide⟩,
    .inl ⟨0x00, 0x00, 0x02, 0x03, [0x25, 0x03, 0xFF], rfl, by decide, by decide, by decide⟩⟩

example : (Burst.mk [.frame exReport, .noise 0x55, .frame exFrame] (some 0x06)).Ok := by
  refine ⟨?_, ?_⟩
  · intro t ht
    simp at ht
    rcases ht with rfl | rfl | rfl
    · exact exReport_good
    · exact ⟨by decide, by decide, by decide, by decide⟩
    · exact exFrame_good
  · intro c hc; simp at hc; exact .inl hc.symm

/-! ## C08 -/

/-- Sequences of reader actions in which every frame is followed, after at most its own report
callback, by exactly one ACK, and no other ACK occurs; every frame really was a frame. -/
inductive WellAcked : List Act → Prop
  | nil : WellAcked []
  | ctrl (b : UInt8) (m : Option Message) (cb rest : List Act) :
      (cb = [] ∨ ∃ n r, cb = [.callback n r]) → (b = 0x06 ∨ b = 0x15 ∨ b = 0x18) →
      WellAcked rest → WellAcked (.ctrl b m :: (cb ++ rest))
  | frame (seen : Slice) (f : List UInt8) (m : Option Message) (cb rest : List Act) :
      (cb = [] ∨ ∃ n r, cb = [.callback n r]) →
      (∃ body, IsFrame body f) → seen.vis.take f.length = zeroed f →
      WellAcked rest → WellAcked (.frame seen f.length m :: (cb ++ .ack :: rest))

theorem callbackOf_shape (m : Option Message) :
    callbackOf m = [] ∨ ∃ n r, callbackOf m = [.callback n r] := by
  unfold callbackOf
  split
  · split
    · exact .inr ⟨_, _, rfl⟩
    · exact .inl rfl
  · exact .inl rfl

theorem wellAcked_append {a b : List Act} (ha : WellAcked a) (hb : WellAcked b) :
    WellAcked (a ++ b) := by
  induction ha with
  | nil => exact hb
  | ctrl c m cb rest h1 h2 h3 ih =>
    rw [List.cons_append, List.append_assoc]
    exact .ctrl c m cb _ h1 h2 ih
  | frame seen f m cb rest h1 h2 h3 h4 ih =>
    rw [List.cons_append, List.append_assoc, List.cons_append]
    exact .frame seen f m cb _ h1 h2 h3 ih

theorem wellAcked_drain (n : Nat) (buf : Slice) (hn : buf.len ≤ n) (as : List Act) (r : Slice)
    (h : drain buf = .ok (as, r)) : WellAcked as := by
  induction n generalizing buf as with
  | zero =>
    obtain ⟨v, sp⟩ := buf
    have : v = [] := by simpa [Slice.len] using hn
    subst this
    rw [drain_empty] at h; cases h
    exact .nil
  | succ n ih =>
    by_cases hv : buf.vis = []
    · obtain ⟨v, sp⟩ := buf
      simp at hv; subst hv
      rw [drain_empty] at h; cases h
      exact .nil
    · rw [drain_eq buf hv] at h
      cases hi : iter buf with
      | error p => rw [hi] at h; cases h
      | ok i =>
        rw [hi] at h
        cases i with
        | wait b => cases h; exact .nil
        | drop b =>
          have := (iter_drop_len hv hi).1
          exact ih b (by omega) as h
        | done a1 r1 =>
          have hl := (iter_done_len hv hi).1
          simp only at h
          cases hd : drain r1 with
          | error p => rw [hd] at h; cases h
          | ok x =>
            rw [hd] at h
            cases h
            apply wellAcked_append _ (ih r1 (by omega) x.1 hd)
            obtain ⟨v, sp⟩ := buf
            have hs := iter_spec v sp hv
            rw [hi] at hs
            cases hs with
            | ctrl b rest m h1 h2 h3 =>
              have := WellAcked.ctrl b m (callbackOf m) [] (callbackOf_shape m) h2 .nil
              simpa using this
            | frame L ck body tail m h1 h2 h3 h4 =>
              have := WellAcked.frame ⟨0x01 :: L :: (body ++ 0x00 :: tail), sp⟩
                (0x01 :: L :: (body ++ [ck])) m (callbackOf m) [] (callbackOf_shape m)
                ⟨body, L, ck, rfl, h2, h3⟩
                (by simp [zeroed, List.take_append, List.take_of_length_le]) .nil
              simpa using this

/-- C08.  For every buffer and every history of reads on which the reader does not crash, ACKs are
written for received frames with correct checksum, one each, and for nothing else. -/
theorem C08_one_ack_per_frame (buf : Slice) (rs : List Read) (as : List Act) (r : Slice)
    (h : feed buf rs = .ok (as, r)) : WellAcked as := by
  induction rs generalizing buf as with
  | nil => cases h; exact .nil
  | cons x rs ih =>
    simp only [feed] at h
    obtain ⟨y, hy, h⟩ := bind_eq_ok.1 h
    obtain ⟨z, hz, h⟩ := bind_eq_ok.1 h
    cases h
    exact wellAcked_append (wellAcked_drain _ _ (Nat.le_refl _) _ _ hy) (ih _ _ hz)

/-- Is the action an ACK? -/
def Act.isAck : Act → Bool
  | .ack => true
  | _ => false
/-- Is the action the reception of a frame? -/
def Act.isFrame : Act → Bool
  | .frame .. => true
  | _ => false

/-- C08, counting form: as many ACKs as received frames. -/
theorem C08_ack_count (buf : Slice) (rs : List Read) (as : List Act) (r : Slice)
    (h : feed buf rs = .ok (as, r)) : as.countP Act.isAck = as.countP Act.isFrame := by
  have hw := C08_one_ack_per_frame buf rs as r h
  clear h
  induction hw with
  | nil => rfl
  | ctrl b m cb rest h1 h2 h3 ih =>
    rcases h1 with rfl | ⟨n, q, rfl⟩ <;> simp [List.countP_cons, Act.isAck, Act.isFrame, ih]
  | frame seen f m cb rest h1 h2 h3 h4 ih =>
    rcases h1 with rfl | ⟨n, q, rfl⟩ <;> simp [List.countP_cons, Act.isAck, Act.isFrame, ih]

/-- C08, completeness: a buffer that starts with a frame with correct checksum is acknowledged
(unless the process crashes). -/
theorem C08_frame_is_acked (body f tail sp : List UInt8) (hf : IsFrame body f) (i : Iter)
    (h : iter ⟨f ++ tail, sp⟩ = .ok i) :
    ∃ as, i = .done as ⟨tail, sp⟩ ∧ as.countP Act.isAck = 1 := by
  obtain ⟨L, ck, rfl, hl, hck⟩ := hf
  have e : 0x01 :: L :: (body ++ [ck]) ++ tail = 0x01 :: L :: (body ++ ck :: tail) := by simp
  rw [e] at h
  have hd := decode_complete L ck body tail sp hl
  rw [if_pos hck] at hd
  cases hm : newMessage ⟨0x01 :: L :: (body ++ 0x00 :: tail), sp⟩ with
  | error p =>
    rw [hm] at hd
    simp only [iter, hd] at h
    cases h
  | ok r =>
    rw [hm] at hd
    have hd1 : ∃ e, decode ⟨0x01 :: L :: (body ++ ck :: tail), sp⟩ =
        .ok (⟨(body.length + 3 : Nat), r.toOption, e⟩,
          ⟨0x01 :: L :: (body ++ 0x00 :: tail), sp⟩) := by
      rw [hd, hl]; cases r <;> exact ⟨_, rfl⟩
    obtain ⟨e1, hd1⟩ := hd1
    rw [iter_frame _ _ sp _ _ _ hd1 (by omega) (by simp)] at h
    have e2 : (0x01 :: L :: (body ++ 0x00 :: tail)).drop (body.length + 3) = tail := by
      simp [List.drop_append]
    rw [e2] at h
    cases h
    refine ⟨_, rfl, ?_⟩
    rcases callbackOf_shape r.toOption with hc | ⟨n, q, hc⟩ <;> simp [hc, Act.isAck]

example : ∃ as r, feed ⟨[], []⟩ [⟨exReport ++ exFrame, true, 3⟩] = .ok (as, r) ∧
    as.countP Act.isAck = 2 := ⟨_, _, rfl, by decide⟩

/-! ## C09 -/

/-- C09 is violated: the noise `01 05` in front of a good frame destroys it — nothing is extracted
and nothing is acknowledged, because the false start byte makes `Decode` zero a byte of the frame. -/
theorem C09_violated_false_start :
    GoodFrame exFrame ∧
    (∃ r, drain ⟨[0x01, 0x05] ++ exFrame, []⟩ = .ok ([], r)) :=
  ⟨exFrame_good, _, rfl⟩

/-- C09, what holds: noise without start or control bytes, of any length, before, between and after
good frames does not affect them. (Missing: noise that contains a start or control byte.) -/
theorem C09_resync_partial (noise : List UInt8) (f tail sp : List UInt8)
    (hn : ∀ b ∈ noise, b ≠ 0x01 ∧ b ≠ 0x06 ∧ b ≠ 0x15 ∧ b ≠ 0x18) (hf : GoodFrame f) :
    ∃ as, drain ⟨noise ++ f ++ tail, sp⟩ = (drain ⟨tail, sp⟩).map (fun x => (as ++ x.1, x.2)) ∧
      as.map core = (Tok.frame f).expected := by
  induction noise with
  | nil => simpa using drain_frame f tail sp hf
  | cons b r ih =>
    obtain ⟨as, h1, h2⟩ := ih (fun x hx => hn x (by simp [hx]))
    refine ⟨as, ?_, h2⟩
    have := drain_noise b (r ++ f ++ tail) sp (hn b (by simp))
    simp only [List.cons_append, List.append_assoc] at this h1 ⊢
    rw [this, h1]

example : ∀ b ∈ ([0x00, 0xFF, 0x55] : List UInt8), b ≠ 0x01 ∧ b ≠ 0x06 ∧ b ≠ 0x15 ∧ b ≠ 0x18 := by
  decide

/-- C09, any noise at all: whatever was read before (if it did not crash the reader), a burst that begins after a gap
of more than 40 ms is processed exactly as it would be without the noise, frame by frame. -/
theorem C09_recovers_after_gap (buf : Slice) (noise : List Read) (as : List Act) (left : Slice)
    (hn : feed buf noise = .ok (as, left)) (b : Burst) (hb : b.Ok) (r : Read) (rs : List Read) (hr : r.aged = true)
    (hrest : ∀ x ∈ rs, x.aged = false) (hbytes : ((r :: rs).map Read.chunk).flatten = b.bytes) :
    ∃ as' sp, feed buf (noise ++ r :: rs) = .ok (as ++ as', ⟨[], sp⟩) ∧ as'.map core = b.expected := by
  obtain ⟨as', sp, h1, h2⟩ := C07_chunk_independent b hb left r rs (.inr hr) hrest hbytes
  refine ⟨as', sp, ?_, h2⟩
  rw [feed_append, hn, bind_ok, h1]
  rfl

/-- The noise that destroys the frame behind it is harmless if the frame comes after a gap. -/
example : ∃ as left, feed ⟨[], []⟩ [⟨[0x01, 0x05], true, 0⟩] = .ok (as, left) ∧ left.vis ≠ [] ∧
    (Burst.mk [.frame exFrame] none).Ok :=
  ⟨[], ⟨[0x01, 0x05], []⟩, by decide +kernel, by decide, fun t ht => by
    simp at ht; subst ht; exact exFrame_good, fun c hc => by cases hc⟩

/-! ## C10 -/

/-- C10, termination: the inner loop ends after at most as many iterations as there are bytes. -/
theorem C10_drain_terminates (buf : Slice) : drainFuel buf.len buf = some (drain buf) :=
  drainFuel_drain _ _ (Nat.le_refl _)

/-- What may be left in the buffer: nothing, or an incomplete frame. -/
def Leftover (v : List UInt8) : Prop :=
  v = [] ∨ v = [0x01] ∨ ∃ L rest, v = 0x01 :: L :: rest ∧ rest.length < L.toNat

/-- C10.  Whatever the stream, what is kept after the loop is nothing or an incomplete frame. -/
theorem C10_leftover (n : Nat) (buf : Slice) (hn : buf.len ≤ n) (as : List Act) (r : Slice)
    (h : drain buf = .ok (as, r)) : Leftover r.vis := by
  induction n generalizing buf as with
  | zero =>
    obtain ⟨v, sp⟩ := buf
    have : v = [] := by simpa [Slice.len] using hn
    subst this
    rw [drain_empty] at h; cases h
    exact .inl rfl
  | succ n ih =>
    by_cases hv : buf.vis = []
    · obtain ⟨v, sp⟩ := buf
      simp at hv; subst hv
      rw [drain_empty] at h; cases h
      exact .inl rfl
    · rw [drain_eq buf hv] at h
      cases hi : iter buf with
      | error p => rw [hi] at h; cases h
      | ok i =>
        rw [hi] at h
        cases i with
        | wait b =>
          cases h
          obtain ⟨rfl, h1⟩ := iter_wait_eq hv hi
          exact .inr h1
        | drop b =>
          have := (iter_drop_len hv hi).1
          exact ih b (by omega) as h
        | done a1 r1 =>
          have hl := (iter_done_len hv hi).1
          simp only at h
          cases hd : drain r1 with
          | error p => rw [hd] at h; cases h
          | ok x =>
            rw [hd] at h
            cases h
            exact ih r1 (by omega) x.1 hd

/-- C10, boundedness: after any history of reads the buffer holds at most 256 bytes. -/
theorem C10_bounded (buf : Slice) (hb : buf.vis.length ≤ 256) (rs : List Read) (as : List Act)
    (r : Slice) (h : feed buf rs = .ok (as, r)) : r.vis.length ≤ 256 := by
  induction rs generalizing buf as with
  | nil => cases h; exact hb
  | cons x rs ih =>
    simp only [feed] at h
    obtain ⟨y, hy, h⟩ := bind_eq_ok.1 h
    obtain ⟨z, hz, h⟩ := bind_eq_ok.1 h
    cases h
    apply ih y.2 _ _ hz
    rcases C10_leftover _ _ (Nat.le_refl _) _ _ hy with h1 | h1 | ⟨L, rest, h1, h2⟩
    · simp [h1]
    · simp [h1]
    · have := L.toNat_lt
      simp [h1]; omega

example : ∃ as r, feed ⟨[], []⟩ [⟨[0x01, 0xFF, 0x00], true, 0⟩] = .ok (as, r) ∧ r.vis.length = 3 :=
  ⟨_, _, rfl, rfl⟩

/-! ## C11 -/

/-- C11.  After a gap of more than 40 ms the left-over bytes have no influence on anything that is
done from then on. -/
theorem C11_stale_discarded (buf₁ buf₂ : Slice) (r : Read) (rs : List Read) (h : r.aged = true) :
    feed buf₁ (r :: rs) = feed buf₂ (r :: rs) := by
  simp [feed, appendRead, h]

/-- C11, the complement: without a gap the left-over bytes do count — a frame cut in two is only
found when the second half arrives in time. -/
theorem C11_gap_matters :
    (∃ as r, feed ⟨exFrame.take 3, []⟩ [⟨exFrame.drop 3, false, 0⟩] = .ok (as, r) ∧
      as.countP Act.isAck = 1) ∧
    (∃ as r, feed ⟨exFrame.take 3, []⟩ [⟨exFrame.drop 3, true, 0⟩] = .ok (as, r) ∧
      as.countP Act.isAck = 0) :=
  ⟨⟨_, _, rfl, by decide⟩, ⟨_, _, rfl, by decide⟩⟩

/-! ## C12 (byte level; see `Verif.Props.Conn` for the part that involves requests) -/

/-- C12 is violated: an ACK followed in the same read by one byte of the next frame, and a valid
but empty frame, crash the reader. -/
theorem C12_violated_bytes_crash :
    feed ⟨[], []⟩ [⟨[0x06, 0x01], true, 6⟩] = .error .index ∧
    feed ⟨[], []⟩ [⟨[0x01, 0x01, 0xFE], true, 5⟩] = .error .index := by
  constructor <;> decide

/-- C12, what holds at byte level: sessions made of good frames, harmless noise and control bytes
that end a burst never crash the reader. (Missing: the streams of `C12_violated_bytes_crash`.) -/
theorem C12_no_crash_partial (l : List (Burst × Read × List Read)) (buf : Slice)
    (hbuf : buf.vis = [])
    (h : ∀ x ∈ l, x.1.Ok ∧ (∀ y ∈ x.2.2, y.aged = false) ∧
      ((x.2.1 :: x.2.2).map Read.chunk).flatten = x.1.bytes) :
    ∃ r, feed buf (l.map fun x => x.2.1 :: x.2.2).flatten = .ok r := by
  obtain ⟨as, sp, h1, -⟩ := C07_session l buf hbuf h
  exact ⟨_, h1⟩

end Verif.Props
