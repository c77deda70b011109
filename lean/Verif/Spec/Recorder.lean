import Verif.Model.Recorder

/-
What passed the port, read off the calls alone.
-/

namespace Verif.Spec

open Verif.Model.Rec

/-- The calls of an execution with direction and bytes, oldest first, given the callers' memory. -/
def traffic (mem : Nat → List UInt8) : List Label → List (Bool × List UInt8)
  | [] => []
  | .set b bytes :: ls => traffic (fun j => if j = b then bytes else mem j) ls
  | .read b bytes :: ls =>
    (false, bytes) :: traffic (fun j => if j = b then bytes ++ (mem b).drop bytes.length else mem j) ls
  | .write b n :: ls => (true, (mem b).take n) :: traffic mem ls
  | _ :: ls => traffic mem ls

/-- `rs` are rows of some of the calls in `t`, none twice; `l` says of which. -/
def RowsOf (t : List (Bool × List UInt8)) (rs : List Verif.Model.RecRow) (l : List Nat) : Prop :=
  l.Nodup ∧ (∀ i ∈ l, i < t.length) ∧ rs.map (fun r => some (r.write, r.data)) = l.map fun i => t[i]?

end Verif.Spec
