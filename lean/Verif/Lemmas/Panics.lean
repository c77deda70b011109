import Verif.Lemmas.Reader
import Verif.Lemmas.Match

/-
The byte-level code only panics with index or slice errors.
-/

set_option linter.unusedSimpArgs false

namespace Verif.Lemmas

open Verif.Go Verif.Model Verif.Spec

/-- The only panics are out-of-range accesses. -/
def BoundsOnly {α : Type} (r : Res α) : Prop := ∀ p, r = .error p → p = .index ∨ p = .slice

theorem BoundsOnly.ok {α : Type} (a : α) : BoundsOnly (.ok a : Res α) := by intro p h; cases h
theorem BoundsOnly.index {α : Type} : BoundsOnly (.error .index : Res α) := by
  intro p h; cases h; exact .inl rfl
theorem BoundsOnly.slice {α : Type} : BoundsOnly (.error .slice : Res α) := by
  intro p h; cases h; exact .inr rfl
theorem BoundsOnly.bind {α β : Type} {x : Res α} {f : α → Res β} (hx : BoundsOnly x)
    (hf : ∀ a, BoundsOnly (f a)) : BoundsOnly (x >>= f) := by
  cases x with
  | error p => rw [bind_err]; intro q h; cases h; exact hx p rfl
  | ok a => rw [bind_ok]; exact hf a

theorem bounds_get (s : Slice) (i : Nat) : BoundsOnly (s.get i) := by
  unfold Slice.get; split
  · exact .ok _
  · exact .index
theorem bounds_sub (s : Slice) (i j : Nat) : BoundsOnly (s.sub i j) := by
  unfold Slice.sub; split
  · exact .ok _
  · exact .slice
theorem bounds_fromIdx (s : Slice) (i : Nat) : BoundsOnly (s.fromIdx i) := by
  unfold Slice.fromIdx; split
  · exact .ok _
  · exact .slice
theorem bounds_appendSub (s : Slice) (i j : Nat) (b : UInt8) : BoundsOnly (s.appendSub i j b) := by
  unfold Slice.appendSub; split
  · split <;> exact .ok _
  · exact .slice
theorem bounds_checksum (d : List UInt8) : BoundsOnly (generateChecksum d) := by
  unfold generateChecksum; split
  · exact .index
  · exact .ok _
theorem bounds_newACH (d : Slice) : BoundsOnly (newACH d) := by
  unfold newACH
  refine (bounds_get _ _).bind fun _ => (bounds_get _ _).bind fun _ => (bounds_fromIdx _ _).bind fun _ => ?_
  split <;> exact .ok _
theorem bounds_setBool (a : List Bool) (i : Nat) (v : Bool) : BoundsOnly (setBool a i v) := by
  unfold setBool; split
  · exact .ok _
  · exact .index
theorem bounds_discSetByte (a : List Bool) (i : Nat) (b : UInt8) : BoundsOnly (discSetByte a i b) := by
  unfold discSetByte
  iterate 7 refine (bounds_setBool _ _ _).bind fun _ => ?_
  exact bounds_setBool _ _ _
theorem bounds_discLoop (a : List Bool) (i : Nat) (l : List UInt8) : BoundsOnly (discLoop a i l) := by
  induction l generalizing a i with
  | nil => exact .ok _
  | cons b r ih =>
    unfold discLoop
    exact (bounds_discSetByte _ _ _).bind fun _ => ih _ _
theorem bounds_newDiscoverdNodes (d : List UInt8) : BoundsOnly (newDiscoverdNodes d) := by
  unfold newDiscoverdNodes; split
  · exact .ok _
  · exact (bounds_discLoop _ _ _).bind fun _ => .ok _
theorem bounds_newMessage (d : Slice) : BoundsOnly (newMessage d) := by
  unfold newMessage
  refine (bounds_get _ _).bind fun _ => ?_
  split
  · exact .ok _
  refine (bounds_get _ _).bind fun _ => (bounds_get _ _).bind fun _ => (bounds_get _ _).bind fun _ => ?_
  split
  · refine (bounds_get _ _).bind fun _ => (bounds_get _ _).bind fun _ => (bounds_sub _ _ _).bind fun _ =>
      (bounds_newACH _).bind fun _ => ?_
    split <;> exact .ok _
  split
  · refine (bounds_get _ _).bind fun _ => (bounds_sub _ _ _).bind fun _ =>
      (bounds_newDiscoverdNodes _).bind fun _ => ?_
    split <;> exact .ok _
  split
  · refine (bounds_fromIdx _ _).bind fun _ => ?_
    split <;> exact .ok _
  · exact (bounds_fromIdx _ _).bind fun _ => .ok _

theorem bounds_iter {buf : Slice} (hv : buf.vis ≠ []) : BoundsOnly (iter buf) := by
  obtain ⟨v, sp⟩ := buf
  have := iter_spec v sp hv
  intro p h
  rw [h] at this
  cases this with
  | panicCtrl _ _ _ _ _ h3 => exact bounds_newMessage _ p h3
  | panicFrame _ _ _ _ _ _ _ _ h4 => exact bounds_newMessage _ p h4

theorem bounds_matchByteAt (m : List UInt8) (b : UInt8) (i : Nat) : BoundsOnly (matchByteAt m b i) := by
  unfold matchByteAt
  repeat' split
  all_goals first | exact .ok _ | exact .index
theorem bounds_logIndex (m : List UInt8) (i : Nat) : BoundsOnly (logIndex m i) := by
  unfold logIndex
  split
  · exact .ok _
  · exact .index
theorem bounds_orReject {m : List UInt8} {i : Nat} {a k : Res Bool} (ha : BoundsOnly a)
    (hk : BoundsOnly k) : BoundsOnly (orReject m i a k) := by
  unfold orReject
  refine BoundsOnly.bind ha fun b => ?_
  split
  · exact hk
  · exact BoundsOnly.bind (bounds_logIndex _ _) fun _ => .ok _

theorem bounds_match (p : Pkg) (m : List UInt8) : BoundsOnly (p.match_ m) := by
  unfold Pkg.match_
  apply bounds_orReject
  · unfold Pkg.fnMatch
    refine BoundsOnly.bind (bounds_matchByteAt _ _ _) fun b => ?_
    split
    · exact .ok _
    · split
      · exact bounds_matchByteAt _ _ _
      · exact .ok _
  · split
    · exact .ok _
    · exact bounds_orReject (bounds_matchByteAt _ _ _) (bounds_orReject (bounds_matchByteAt _ _ _)
        (bounds_orReject (bounds_matchByteAt _ _ _) (.ok _)))

end Verif.Lemmas
