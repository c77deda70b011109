import Verif.Model.Reports

/-
A reader of the texts that reports print themselves as, written from the texts alone.
-/

namespace Verif.Spec

open Verif.Model

/-- What a text says. Numbers with six decimals are in millionths. Durations are in seconds, `none` is the factory
default. -/
inductive Shown where
  | alarm (type level : Nat)
  | alarmFull (type level source status sensorType event : Nat)
  | manufacturer (m t i : List Char)
  | endpoints (dynamic identical : Bool) (n : Nat)
  | binary (current : Bool)
  | binaryTo (current target : Bool) (d : Option Nat)
  | level (current : Option Nat)
  | levelTo (current target : Option Nat) (d : Option Nat)
  | sensor (negative : Bool) (value : Nat) (type unit : List Char)
  | wakeUp
deriving DecidableEq, Repr

/-- The parts between single spaces. -/
def words : List Char → List (List Char)
  | [] => [[]]
  | c :: s =>
    if c = ' ' then [] :: words s
    else match words s with
      | w :: ws => (c :: w) :: ws
      | [] => [[c]]

/-- Single spaces between the parts. -/
def unwords : List (List Char) → List Char
  | [] => []
  | [w] => w
  | w :: ws => w ++ ' ' :: unwords ws

/-- What follows a label. -/
def after (label : List Char) (w : List Char) : Option (List Char) :=
  match label, w with
  | [], w => some w
  | _ :: _, [] => none
  | a :: l, b :: w => if a = b then after l w else none

/-- A decimal number. -/
def readDec (w : List Char) : Option Nat :=
  if w ≠ [] ∧ w.all Char.isDigit then some (w.foldl (fun n c => n * 10 + (c.toNat - 48)) 0) else none

/-- The value of a hexadecimal digit. -/
def nibble (c : Char) : Option Nat :=
  if c.isDigit then some (c.toNat - 48) else if 'a' ≤ c ∧ c ≤ 'f' then some (c.toNat - 87) else none

/-- A hexadecimal number. -/
def readHex (w : List Char) : Option Nat :=
  match w with
  | [] => none
  | _ => w.foldl (fun n c => n.bind fun n => (nibble c).map fun v => n * 16 + v) (some 0)

def readBool (w : List Char) : Option Bool :=
  if w = ['t', 'r', 'u', 'e'] then some true else if w = ['f', 'a', 'l', 's', 'e'] then some false else none

/-- The part before and the part after the first `c`. -/
def cut (c : Char) : List Char → Option (List Char × List Char)
  | [] => none
  | a :: s => if a = c then some ([], s) else (cut c s).map fun p => (a :: p.1, p.2)

/-- A non-negative number with six decimals, in millionths. -/
def readMicro (w : List Char) : Option Nat := do
  let (a, b) ← cut '.' w
  let n ← readDec a
  let m ← readDec b
  if b.length = 6 then some (n * 1000000 + m) else none

/-- A number with six decimals and perhaps a sign. -/
def readSigned (w : List Char) : Option (Bool × Nat) :=
  match w with
  | '-' :: w => (readMicro w).map fun n => (true, n)
  | w => (readMicro w).map fun n => (false, n)

/-- The value of a level: unknown, or a number. -/
def readLevel (w : List Char) : Option (Option Nat) :=
  if w = ['u', 'n', 'k', 'n', 'o', 'w', 'n'] then some none else (readMicro w).map some

/-- Hours, minutes and seconds. -/
def readHms (w : List Char) : Option Nat := do
  let (h, w) := ((cut 'h' w).map fun p => (some p.1, p.2)).getD (none, w)
  let (m, w) := ((cut 'm' w).map fun p => (some p.1, p.2)).getD (none, w)
  let (s, w) ← cut 's' w
  let h ← (match h with | some h => readDec h | none => some 0)
  let m ← (match m with | some m => readDec m | none => some 0)
  let s ← readDec s
  if w = [] then some (h * 3600 + m * 60 + s) else none

/-- A duration, in words. -/
def readDuration (ws : List (List Char)) : Option (Option Nat) :=
  match ws with
  | [w] => (readHms w).map some
  | [a, b, c] => if unwords [a, b, c] = "Factory default duration".toList then some none else none
  | _ => none

/-- What a text says, by its words. -/
def readWords (ws : List (List Char)) : Option Shown :=
  match ws with
  | [] => none
  | w :: ws =>
    if w = "wakeup".toList then if ws = [] then some .wakeUp else none
    else if w = "alarm".toList then
      match ws with
      | [a, b] => do
        let t ← (after "type:".toList a).bind readHex
        let l ← (after "level:".toList b).bind readHex
        some (.alarm t l)
      | [a, b, c, d, e, f] => do
        let t ← (after "type:".toList a).bind readHex
        let l ← (after "level:".toList b).bind readHex
        let src ← (after "sensorSrcID:".toList c).bind readHex
        let st ← (after "status:".toList d).bind readHex
        let ty ← (after "sensorType:".toList e).bind readHex
        let ev ← (after "event:".toList f).bind readHex
        some (.alarmFull t l src st ty ev)
      | _ => none
    else if w = "manufacturerSpecific".toList then
      match ws with
      | [a, b, c, _] => do
        let m ← after "manufacturer:".toList a
        let t ← after "type:".toList b
        let i ← after "id:".toList c
        some (.manufacturer m t i)
      | _ => none
    else if w = "multiChannelEndpoints".toList then
      match ws with
      | [a, b, c] => do
        let d ← (after "dynamic:".toList a).bind readBool
        let i ← (after "identical:".toList b).bind readBool
        let n ← (after "endpoints:".toList c).bind readDec
        some (.endpoints d i n)
      | _ => none
    else match after "current:".toList w with
      | some cur =>
        match ws with
        | [] =>
          match readBool cur with
          | some c => some (.binary c)
          | none => (readLevel cur).map .level
        | a :: d :: ds => do
          let tgt ← after "target:".toList a
          let d0 ← after "duration:".toList d
          let dur ← readDuration (d0 :: ds)
          match readBool cur with
          | some c => (readBool tgt).map fun t => .binaryTo c t dur
          | none => do
            let c ← readLevel cur
            let t ← readLevel tgt
            some (.levelTo c t dur)
        | _ => none
      | none => do
        let (neg, v) ← readSigned w
        match ws with
        | t :: ws =>
          if t = "Unknown".toList then
            match ws with
            | n :: ws => some (.sensor neg v (unwords [t, n]) (unwords ws))
            | [] => none
          else some (.sensor neg v t (unwords ws))
        | [] => none

/-- What a text says. -/
def readText (s : List Char) : Option Shown := readWords (words s)

/-- The seconds a duration byte stands for: seconds up to 127, minutes up to 253, then the factory default. -/
def secondsOf (d : UInt8) : Option Nat :=
  if d.toNat ≤ 127 then some d.toNat else if d.toNat ≤ 253 then some ((d.toNat - 127) * 60) else none

end Verif.Spec
