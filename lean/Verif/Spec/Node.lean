import Verif.Model.Reports

/-
What reports mean for the state of a node, written from the documentation of the state keys, without
reference to the code that applies them.
-/

namespace Verif.Spec

open Verif.Go Verif.Model

/-- What a report says about the boolean state `k`. -/
def saysBool (r : Report) (k : List Char) : Option Bool :=
  if k = "on".toList then
    match r with
    | .switchBinaryV1 c _ => some c
    | .switchBinaryV2 c _ _ => some c
    | .switchMultilevelV1 c _ => some (decide (c ≠ 0))
    | .switchMultilevelV4 c _ _ _ _ => some (decide (c ≠ 0))
    | _ => none
  else none

/-- What a report says about the numeric state `k`. -/
def saysFloat (r : Report) (k : List Char) : Option Rat :=
  match r with
  | .switchMultilevelV1 c _ => if k = "level".toList then some c else none
  | .switchMultilevelV4 c _ _ _ _ => if k = "level".toList then some c else none
  | .sensorMultiLevel s =>
    if k = (s.typeString ++ "_".toList ++ s.unit).map Char.toLower then some s.value else none
  | _ => none

/-- The reports that carry a state. -/
def isState (r : Report) : Bool :=
  match r with
  | .switchBinaryV1 .. | .switchBinaryV2 .. | .switchMultilevelV1 .. | .switchMultilevelV4 ..
  | .sensorMultiLevel .. => true
  | _ => false

/-- The value of a key after a list of reports (oldest first): what the last report that concerns the
key says, or else the value before. -/
def lastSaid {α : Type} (says : Report → Option α) (before : Option α) (rs : List Report) : Option α :=
  match rs.reverse.findSome? says with
  | some v => some v
  | none => before

end Verif.Spec
