/-
Go semantics used by the model: run-time panics, byte slices with capacity, small helpers.
Nothing here is specific to gozwave.
-/

namespace Verif.Go

/-- The run-time panics that can occur in the modelled code.  A panic ends the process: nothing in
/repo recovers from panics. -/
inductive Panic where
  /-- index out of range -/
  | index
  /-- slice bounds out of range -/
  | slice
  /-- nil pointer dereference -/
  | nilDeref
  /-- close of a nil channel or of a closed channel -/
  | close
  /-- send on a closed channel -/
  | send
  /-- not a panic but a fatal error: concurrent map iteration and map write -/
  | mapRace
  /-- assignment to an entry of a nil map -/
  | nilMap
deriving DecidableEq, Repr, Inhabited

deriving instance DecidableEq for Except

/-- A computation that may panic. -/
abbrev Res (α : Type) := Except Panic α

/-- A Go byte slice: the visible bytes and the bytes between length and capacity
(slices of the backing array that `s[lo:hi]` can re-expose). -/
structure Slice where
  /-- visible bytes, `len(s)` of them -/
  vis : List UInt8
  /-- bytes after `len(s)` up to `cap(s)` -/
  spare : List UInt8
deriving DecidableEq, Repr, Inhabited

namespace Slice

/-- `len(s)` -/
def len (s : Slice) : Nat := s.vis.length

/-- `cap(s)` -/
def cap (s : Slice) : Nat := s.vis.length + s.spare.length

/-- `s[i]`; panics when `i ≥ len(s)`. -/
def get (s : Slice) (i : Nat) : Res UInt8 :=
  match s.vis[i]? with
  | some b => .ok b
  | none => .error .index

/-- `s[lo:hi]`; Go checks `hi` against the capacity, not the length. -/
def sub (s : Slice) (lo hi : Nat) : Res Slice :=
  if lo ≤ hi ∧ hi ≤ s.cap then
    .ok ⟨((s.vis ++ s.spare).take hi).drop lo, (s.vis ++ s.spare).drop hi⟩
  else .error .slice

/-- `s[lo:]`; Go checks `lo` against the length. -/
def fromIdx (s : Slice) (lo : Nat) : Res Slice :=
  if lo ≤ s.len then .ok ⟨s.vis.drop lo, s.spare⟩ else .error .slice

/-- `append(s[lo:hi], b)`: the resulting slice, and `s` as it is seen afterwards.  When the backing
array has room after `hi` the byte is written there, in place, and is visible through `s` if
`hi < len(s)`; otherwise a fresh array is allocated and `s` is unchanged.  (The spare part of the
result is not used by any caller and left empty.) -/
def appendSub (s : Slice) (lo hi : Nat) (b : UInt8) : Res (List UInt8 × Slice) :=
  if lo ≤ hi ∧ hi ≤ s.cap then
    let res := ((s.vis ++ s.spare).take hi).drop lo ++ [b]
    if hi < s.cap then
      let back := (s.vis ++ s.spare).set hi b
      .ok (res, ⟨back.take s.len, back.drop s.len⟩)
    else .ok (res, s)
  else .error .slice

end Slice

/-- Conversion of a Go `int` that is known to be non-negative to `byte` (wraps modulo 256). -/
def toByte (n : Nat) : UInt8 := UInt8.ofNat n

/-- Conversion of any Go `int` to `byte` (wraps modulo 256). -/
def intToByte (n : Int) : UInt8 := UInt8.ofNat (n % 256).toNat

end Verif.Go
