/-
Specifications for the tables and tools: the value of a Go string literal, groups of recorded rows,
lower case, hexadecimal. Independent of the model.
-/

namespace Verif.Spec

/-- Reads the rest of an interpreted string literal after its opening quote: the value and what follows
the closing quote. Only the single-character escapes are read; NUL and the byte order mark are rejected
as the gc compiler does, line breaks as the language demands. -/
def readLit : List Char → Option (List Char × List Char)
  | [] => none
  | '"' :: rest => some ([], rest)
  | '\\' :: e :: rest =>
    match e with
    | 'a' => (readLit rest).map fun r => ('\x07' :: r.1, r.2)
    | 'b' => (readLit rest).map fun r => ('\x08' :: r.1, r.2)
    | 'f' => (readLit rest).map fun r => ('\x0c' :: r.1, r.2)
    | 'n' => (readLit rest).map fun r => ('\n' :: r.1, r.2)
    | 'r' => (readLit rest).map fun r => ('\r' :: r.1, r.2)
    | 't' => (readLit rest).map fun r => ('\t' :: r.1, r.2)
    | 'v' => (readLit rest).map fun r => ('\x0b' :: r.1, r.2)
    | '\\' => (readLit rest).map fun r => ('\\' :: r.1, r.2)
    | '"' => (readLit rest).map fun r => ('"' :: r.1, r.2)
    | _ => none
  | c :: rest =>
    if c = '\\' ∨ c = '\n' ∨ c.toNat = 0 ∨ c.toNat = 0xFEFF then none
    else (readLit rest).map fun r => (c :: r.1, r.2)

/-- Splits a list before every element that is far from its predecessor. -/
def runs {α : Type} (near : α → α → Prop) [DecidableRel near] : List α → List (List α)
  | [] => []
  | [a] => [[a]]
  | a :: b :: rest =>
    match runs near (b :: rest) with
    | [] => [[a]]
    | g :: gs => if near a b then (a :: g) :: gs else [a] :: g :: gs

/-- Value of a string of hexadecimal digits of either case; `none` if it is not one. -/
def hexNat (s : List Char) : Option Nat :=
  s.foldl (fun acc c => acc.bind fun n =>
    if '0' ≤ c ∧ c ≤ '9' then some (n * 16 + (c.toNat - '0'.toNat))
    else if 'a' ≤ c ∧ c ≤ 'f' then some (n * 16 + (c.toNat - 'a'.toNat + 10))
    else if 'A' ≤ c ∧ c ≤ 'F' then some (n * 16 + (c.toNat - 'A'.toNat + 10))
    else none) (some 0)

end Verif.Spec
