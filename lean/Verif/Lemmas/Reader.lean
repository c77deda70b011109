import Verif.Lemmas.NewMessage
import Verif.Model.Reader

set_option linter.unusedSimpArgs false

namespace Verif.Lemmas

open Verif.Go Verif.Model Verif.Spec

/-! ### one iteration -/

theorem iter_wait (v sp : List UInt8) (n : Nat)
    (h : decode ⟨v, sp⟩ = .ok (⟨(n : Nat), none, none⟩, ⟨v, sp⟩)) (hn : v.length < n) (hn1 : 1 < n) :
    iter ⟨v, sp⟩ = .ok (.wait ⟨v, sp⟩) := by
  have h1 : ((n : Nat) : Int) > ((v.length : Nat) : Int) := by omega
  have h2 : ¬ ((n : Nat) : Int) = 1 := by omega
  simp only [iter, h, bind_ok, h1, h2, if_true, if_false, Slice.len]
  rfl

theorem iter_drop (b : UInt8) (v v' sp : List UInt8) (e : Option Err) (w : List UInt8)
    (h : decode ⟨v, sp⟩ = .ok (⟨-1, none, e⟩, ⟨w, sp⟩)) (hw : w = b :: v') :
    iter ⟨v, sp⟩ = .ok (.drop ⟨v', sp⟩) := by
  subst hw
  have h1 : ¬ ((-1 : Int) > (((b :: v').length : Nat) : Int)) := by omega
  have hf : Slice.fromIdx ⟨b :: v', sp⟩ 1 = .ok ⟨v', sp⟩ := fromIdx_ok (by simp)
  simp only [iter, h, bind_ok, h1, if_false, Slice.len, if_true, hf]
  rfl

theorem iter_ctrl (b : UInt8) (rest sp : List UInt8) (m : Option Message) (e : Option Err)
    (h : decode ⟨b :: rest, sp⟩ = .ok (⟨1, m, e⟩, ⟨b :: rest, sp⟩)) :
    iter ⟨b :: rest, sp⟩ = .ok (.done ([.ctrl b m] ++ callbackOf m) ⟨rest, sp⟩) := by
  have h1 : ¬ ((1 : Int) > (((b :: rest).length : Nat) : Int)) := by simp; omega
  have hf : Slice.fromIdx ⟨b :: rest, sp⟩ 1 = .ok ⟨rest, sp⟩ := fromIdx_ok (by simp)
  have h2 : ¬ ((1 : Int) > 1) := by omega
  have h3 : ¬ ((1 : Int) < 0) := by omega
  have h4 : ¬ ((1 : Int) = -1) := by omega
  have h5 : (1 : Int).toNat = 1 := rfl
  simp only [iter, h, bind_ok, h1, h2, h3, h4, h5, if_false, Slice.len, if_true, hf,
    get_cons_zero, Except.map, List.append_nil]
  rfl

theorem iter_frame (v w sp : List UInt8) (n : Nat) (m : Option Message) (e : Option Err)
    (h : decode ⟨v, sp⟩ = .ok (⟨(n : Nat), m, e⟩, ⟨w, sp⟩)) (hn : 1 < n) (hw : n ≤ w.length) :
    iter ⟨v, sp⟩ =
      .ok (.done ([.frame ⟨w, sp⟩ n m] ++ callbackOf m ++ [.ack]) ⟨w.drop n, sp⟩) := by
  have h1 : ¬ (((n : Nat) : Int) > ((w.length : Nat) : Int)) := by omega
  have h2 : (((n : Nat) : Int) > 1) := by omega
  have h3 : ¬ (((n : Nat) : Int) < 0) := by omega
  have h4 : ¬ (((n : Nat) : Int) = -1) := by omega
  have h6 : ¬ (((n : Nat) : Int) = 1) := by omega
  have h5 : ((n : Nat) : Int).toNat = n := rfl
  have hf : Slice.fromIdx ⟨w, sp⟩ n = .ok ⟨w.drop n, sp⟩ := fromIdx_ok hw
  simp only [iter, h, bind_ok, h1, h2, h3, h4, h5, h6, if_false, Slice.len, if_true, hf,
    List.nil_append]
  rfl

/-- What one iteration does, case by case. -/
inductive IterSpec (v sp : List UInt8) : Res Iter → Prop
  | wait1 : v = [0x01] → IterSpec v sp (.ok (.wait ⟨v, sp⟩))
  | wait (L : UInt8) (rest : List UInt8) : v = 0x01 :: L :: rest → rest.length < L.toNat →
      IterSpec v sp (.ok (.wait ⟨v, sp⟩))
  | dropZero (rest : List UInt8) : v = 0x01 :: 0x00 :: rest →
      IterSpec v sp (.ok (.drop ⟨0x00 :: rest, sp⟩))
  | dropBad (L ck : UInt8) (body tail : List UInt8) : v = 0x01 :: L :: (body ++ ck :: tail) →
      L.toNat = body.length + 1 → xorAll (L :: (body ++ [ck])) ≠ 0xFF →
      IterSpec v sp (.ok (.drop ⟨L :: (body ++ 0x00 :: tail), sp⟩))
  | dropJunk (b : UInt8) (rest : List UInt8) : v = b :: rest →
      (b ≠ 0x01 ∧ b ≠ 0x06 ∧ b ≠ 0x15 ∧ b ≠ 0x18) → IterSpec v sp (.ok (.drop ⟨rest, sp⟩))
  | ctrl (b : UInt8) (rest : List UInt8) (m : Option Message) : v = b :: rest →
      (b = 0x06 ∨ b = 0x15 ∨ b = 0x18) →
      (∃ r, newMessage ⟨v, sp⟩ = .ok r ∧ m = r.toOption) →
      IterSpec v sp (.ok (.done ([.ctrl b m] ++ callbackOf m) ⟨rest, sp⟩))
  | frame (L ck : UInt8) (body tail : List UInt8) (m : Option Message) :
      v = 0x01 :: L :: (body ++ ck :: tail) →
      L.toNat = body.length + 1 → xorAll (L :: (body ++ [ck])) = 0xFF →
      (∃ r, newMessage ⟨0x01 :: L :: (body ++ 0x00 :: tail), sp⟩ = .ok r ∧ m = r.toOption) →
      IterSpec v sp (.ok (.done ([.frame ⟨0x01 :: L :: (body ++ 0x00 :: tail), sp⟩
        (body.length + 3) m] ++ callbackOf m ++ [.ack]) ⟨tail, sp⟩))
  | panicCtrl (b : UInt8) (rest : List UInt8) (p : Panic) : v = b :: rest →
      (b = 0x06 ∨ b = 0x15 ∨ b = 0x18) → newMessage ⟨v, sp⟩ = .error p →
      IterSpec v sp (.error p)
  | panicFrame (L ck : UInt8) (body tail : List UInt8) (p : Panic) :
      v = 0x01 :: L :: (body ++ ck :: tail) →
      L.toNat = body.length + 1 → xorAll (L :: (body ++ [ck])) = 0xFF →
      newMessage ⟨0x01 :: L :: (body ++ 0x00 :: tail), sp⟩ = .error p →
      IterSpec v sp (.error p)

theorem iter_spec (v sp : List UInt8) (hv : v ≠ []) : IterSpec v sp (iter ⟨v, sp⟩) := by
  rcases buffer_cases v hv with rfl | ⟨L, rest, rfl, hl⟩ | ⟨rest, rfl⟩ |
      ⟨L, body, ck, tail, rfl, hl⟩ | ⟨b, rest, rfl, hb⟩ | ⟨b, rest, rfl, hb⟩
  · rw [iter_wait [0x01] sp 2 (decode_sof_short sp) (by simp) (by simp)]
    exact .wait1 rfl
  · rw [iter_wait _ sp _ (decode_incomplete L rest sp hl) (by simp; omega) (by omega)]
    exact .wait L rest rfl hl
  · rw [iter_drop 0x01 _ (0x00 :: rest) sp _ _ (decode_zero_length rest sp) rfl]
    exact .dropZero rest rfl
  · have hd := decode_complete L ck body tail sp hl
    split at hd
    · rename_i hck
      cases hm : newMessage ⟨0x01 :: L :: (body ++ 0x00 :: tail), sp⟩ with
      | error p =>
        rw [hm] at hd
        have : iter ⟨0x01 :: L :: (body ++ ck :: tail), sp⟩ = .error p := by
          simp only [iter, hd]; rfl
        rw [this]
        exact .panicFrame L ck body tail p rfl hl hck hm
      | ok r =>
        rw [hm] at hd
        have hd' : ∃ e, decode ⟨0x01 :: L :: (body ++ ck :: tail), sp⟩ =
            .ok (⟨(body.length + 3 : Nat), r.toOption, e⟩,
              ⟨0x01 :: L :: (body ++ 0x00 :: tail), sp⟩) := by
          rw [hd, hl]; cases r <;> exact ⟨_, rfl⟩
        obtain ⟨e, hd'⟩ := hd'
        have := iter_frame _ _ sp _ _ _ hd' (by omega) (by simp)
        rw [this]
        have e : (0x01 :: L :: (body ++ 0x00 :: tail)).drop (body.length + 3) = tail := by
          simp [List.drop_append]
        rw [e]
        exact .frame L ck body tail _ rfl hl hck ⟨r, hm, rfl⟩
    · rename_i hck
      rw [iter_drop 0x01 _ (L :: (body ++ 0x00 :: tail)) sp _ _ hd rfl]
      exact .dropBad L ck body tail rfl hl hck
  · have hd := decode_ctrl b rest sp hb
    cases hm : newMessage ⟨b :: rest, sp⟩ with
    | error p =>
      rw [hm] at hd
      have : iter ⟨b :: rest, sp⟩ = .error p := by simp only [iter, hd]; rfl
      rw [this]
      exact .panicCtrl b rest p rfl hb hm
    | ok r =>
      rw [hm] at hd
      have hd' : decode ⟨b :: rest, sp⟩ = .ok (⟨1, r.toOption, none⟩, ⟨b :: rest, sp⟩) := by
        rw [hd]; cases r <;> rfl
      rw [iter_ctrl b rest sp _ _ hd']
      exact .ctrl b rest _ rfl hb ⟨r, hm, rfl⟩
  · rw [iter_drop b _ rest sp _ _ (decode_junk b rest sp hb) rfl]
    exact .dropJunk b rest rfl hb

/-! ### the loop -/

theorem iter_drop_len {buf b : Slice} (hv : buf.vis ≠ []) (h : iter buf = .ok (.drop b)) :
    b.len + 1 = buf.len ∧ b.spare = buf.spare := by
  obtain ⟨v, sp⟩ := buf
  have hs := iter_spec v sp hv
  rw [h] at hs
  cases hs with
  | dropZero rest h1 => subst h1; simp [Slice.len]
  | dropBad L ck body tail h1 h2 h3 => subst h1; simp [Slice.len]
  | dropJunk b rest h1 h2 => subst h1; simp [Slice.len]

theorem iter_done_len {buf r : Slice} {as : List Act} (hv : buf.vis ≠ [])
    (h : iter buf = .ok (.done as r)) : r.len < buf.len ∧ r.spare = buf.spare := by
  obtain ⟨v, sp⟩ := buf
  have hs := iter_spec v sp hv
  rw [h] at hs
  cases hs with
  | ctrl b rest m h1 h2 h3 => subst h1; simp [Slice.len]
  | frame L ck body tail m h1 h2 h3 h4 => subst h1; simp [Slice.len]; omega

theorem iter_wait_eq {buf b : Slice} (hv : buf.vis ≠ []) (h : iter buf = .ok (.wait b)) :
    b = buf ∧ (buf.vis = [0x01] ∨
      ∃ L rest, buf.vis = 0x01 :: L :: rest ∧ rest.length < L.toNat) := by
  obtain ⟨v, sp⟩ := buf
  have hs := iter_spec v sp hv
  rw [h] at hs
  cases hs with
  | wait1 h1 => exact ⟨rfl, .inl h1⟩
  | wait L rest h1 h2 => exact ⟨rfl, .inr ⟨L, rest, h1, h2⟩⟩

theorem len_ne_zero {buf : Slice} (h : ¬ buf.len = 0) : buf.vis ≠ [] := by
  intro hh; apply h; simp [Slice.len, hh]

theorem drainFuel_enough (n m : Nat) (buf : Slice) (hn : buf.len ≤ n) (hm : buf.len ≤ m) :
    drainFuel n buf = drainFuel m buf ∧ (drainFuel n buf).isSome := by
  induction n generalizing m buf with
  | zero =>
    have : buf.len = 0 := by omega
    cases m <;> simp [drainFuel, this]
  | succ n ih =>
    by_cases h0 : buf.len = 0
    · cases m <;> simp [drainFuel, h0]
    · cases m with
      | zero => omega
      | succ m =>
        simp only [drainFuel, if_neg h0]
        have hv := len_ne_zero h0
        cases hi : iter buf with
        | error p => simp
        | ok i =>
          cases i with
          | wait b => simp
          | drop b =>
            have := (iter_drop_len hv hi).1
            exact ih m b (by omega) (by omega)
          | done as r =>
            have := (iter_done_len hv hi).1
            have := ih m r (by omega) (by omega)
            simp only [this.1]
            simp [← this.1, this.2]

theorem drainFuel_drain (n : Nat) (buf : Slice) (hn : buf.len ≤ n) :
    drainFuel n buf = some (drain buf) := by
  have h := drainFuel_enough n buf.len buf hn (Nat.le_refl _)
  unfold drain
  rw [← h.1]
  have h2 := h.2
  cases hd : drainFuel n buf with
  | none => rw [hd] at h2; cases h2
  | some r => rfl

theorem drain_empty (sp : List UInt8) : drain ⟨[], sp⟩ = .ok ([], ⟨[], sp⟩) := by
  simp [drain, drainFuel, Slice.len]

/-- Unfolding equation of the inner loop. -/
theorem drain_eq (buf : Slice) (hv : buf.vis ≠ []) :
    drain buf = match iter buf with
      | .error p => .error p
      | .ok (.wait b) => .ok ([], b)
      | .ok (.drop b) => drain b
      | .ok (.done as r) => (drain r).map fun x => (as ++ x.1, x.2) := by
  have h0 : ¬ buf.len = 0 := by
    intro h; apply hv; simpa [Slice.len] using h
  have h1 := drainFuel_drain (buf.len + 1) buf (by omega)
  simp only [drainFuel, if_neg h0] at h1
  cases hi : iter buf with
  | error p => rw [hi] at h1; simp at h1; exact h1.symm
  | ok i =>
    rw [hi] at h1
    cases i with
    | wait b => simp at h1; exact h1.symm
    | drop b =>
      have hl := (iter_drop_len hv hi).1
      simp only at h1
      rw [drainFuel_drain buf.len b (by omega)] at h1
      injection h1 with h1
      exact h1.symm
    | done as r =>
      have hl := (iter_done_len hv hi).1
      simp only at h1
      rw [drainFuel_drain buf.len r (by omega)] at h1
      injection h1 with h1
      exact h1.symm

/-! ### frames -/

/-- The message of a frame does not depend on what follows it in the buffer. -/
theorem newMessage_sane (L : UInt8) (body tail sp : List UInt8) (hs : SaneBody body) :
    newMessage ⟨0x01 :: L :: (body ++ 0x00 :: tail), sp⟩ =
      newMessage ⟨0x01 :: L :: (body ++ [0x00]), []⟩ := by
  have hsub : ∀ (a b c d : UInt8) (x y : UInt8) (n : UInt8) (rest t s : List UInt8),
      n.toNat ≤ 248 → n.toNat ≤ rest.length →
      ∃ s', Slice.sub ⟨a :: b :: c :: d :: x :: y :: n :: (rest ++ t), s⟩ 7 (7 + n).toNat =
        .ok ⟨rest.take n.toNat, s'⟩ := by
    intro a b c d x y n rest t s h1 h2
    have h3 : (7 + n).toNat = 7 + n.toNat := by rw [seven_add, if_pos (by omega)]
    rw [h3, sub_ok (by simp [Slice.cap]; omega)]
    refine ⟨(a :: b :: c :: d :: x :: y :: n :: (rest ++ t) ++ s).drop (7 + n.toNat), ?_⟩
    congr 2
    have : 7 + n.toNat = n.toNat + 1 + 1 + 1 + 1 + 1 + 1 + 1 := by omega
    rw [this]
    simp [List.take_append]
    have e1 : n.toNat - rest.length = 0 := by omega
    simp [e1]
  have hach : ∀ (v s s' : List UInt8), newACH ⟨v, s⟩ = newACH ⟨v, s'⟩ := by
    intro v s s'
    match v with
    | [] => rfl
    | [a] => rfl
    | a :: b :: r => rfl
  rcases hs with ⟨ty, rx, node, n, rest, rfl, h1, h2, h3⟩ | ⟨ty, a, b, n, rest, rfl, h1, h2⟩ |
    ⟨ty, rest, rfl, h1⟩ | ⟨ty, fn, rest, rfl, h1, h2, h3⟩
  · obtain ⟨s1, e1⟩ := hsub 0x01 L ty 0x04 rx node n rest (0x00 :: tail) sp h2 h3
    obtain ⟨s2, e2⟩ := hsub 0x01 L ty 0x04 rx node n rest [0x00] [] h2 h3
    simp only [newMessage, Slice.get, Slice.len, List.cons_append, List.length_cons,
      List.getElem?_cons_zero, List.getElem?_cons_succ, bind_ok, fnApplicationCommandHandler,
      if_true, e1, e2, hach _ s1 s2]
    simp
  · obtain ⟨s1, e1⟩ := hsub 0x01 L ty 0x02 a b n rest (0x00 :: tail) sp (by omega) h2
    obtain ⟨s2, e2⟩ := hsub 0x01 L ty 0x02 a b n rest [0x00] [] (by omega) h2
    have d1 : ¬ ((0x02 : UInt8) = 0x04) := by decide
    simp only [newMessage, Slice.get, Slice.len, List.cons_append, List.length_cons,
      List.getElem?_cons_zero, List.getElem?_cons_succ, bind_ok, fnApplicationCommandHandler,
      fnDiscoveryNodes, if_true, e1, e2, d1, if_false]
    simp
  · match rest, h1 with
    | a :: b :: c :: d :: e :: f :: r, _ =>
      simp [newMessage, Slice.get, Slice.len, bind_ok, fnApplicationCommandHandler,
        fnDiscoveryNodes, fnGetNodeProtocolInfo, fromIdx_ok, newProtocolInfo]
  · simp [newMessage, Slice.get, Slice.len, bind_ok, fnApplicationCommandHandler,
        fnDiscoveryNodes, fnGetNodeProtocolInfo, fromIdx_ok, h1, h2, h3]
    rfl

end Verif.Lemmas
