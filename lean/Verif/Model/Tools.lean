import Verif.Go.Basic

/-
Code outside the library proper: the string escaping of the device generator, the serial recorder's
log and the tool that prints recordings.
-/

namespace Verif.Model

open Verif.Go

/-! ### generators/database/database.go -/

/-- `escaper.Replace`, generators/database/database.go 124-129. All patterns are single bytes, so the
replacer works byte by byte; the patterns are ASCII, so working on characters is the same. -/
def escape : List Char → List Char
  | [] => []
  | c :: cs =>
    (if c = '\\' then ['\\', '\\']
     else if c = '"' then ['\\', '"']
     else if c = '\r' then ['\\', 'r']
     else if c = '\n' then ['\\', 'n']
     else [c]) ++ escape cs

/-- The ids of one `device_ref`: manufacturer, type, product. -/
abbrev Ids := List Char × List Char × List Char

/-- `iden`, generators/database/database.go 302; also the name of the constructor (template, lines 176, 185). -/
def iden (x : Ids) : List Char := x.1 ++ '_' :: (x.2.1 ++ '_' :: x.2.2)

/-- The label of the case in the generated switch, generators/database/database.go 175 (the ids are
ASCII, so `strings.ToLower` works character by character). -/
def caseLabel (x : Ids) : List Char := iden (x.1.map Char.toLower, x.2.1.map Char.toLower, x.2.2.map Char.toLower)

/-- The references that survive, generators/database/database.go 270, 300-315 over all files. -/
def keepRefs (idens : List (List Char)) : List Ids → List Ids
  | [] => []
  | x :: xs => if iden x ∈ idens then keepRefs idens xs else x :: keepRefs (iden x :: idens) xs

/-! ### serialrecorder and cmd/serialrecordingtohex -/

/-- `Row`, serialrecorder/serialrecorder.go 22-26. Time in nanoseconds; 0 stands for `time.Time{}`.
`write` is the direction. -/
structure RecRow where
  time : Int
  write : Bool
  data : List UInt8
deriving DecidableEq, Repr, Inhabited

/-- `logRowCombiner`, cmd/serialrecordingtohex/serialrecordingtohex.go 110-113 -/
structure Combiner where
  prev : RecRow
  buf : List UInt8
deriving DecidableEq, Repr, Inhabited

/-- The zero value of `logRowCombiner`. -/
def Combiner.zero : Combiner := ⟨⟨0, false, []⟩, []⟩

/-- `combine`, serialrecordingtohex.go 115-141 (`Sub` saturates only
beyond 290 years) -/
def combine (l : Combiner) (r : RecRow) : Combiner × Option RecRow :=
  let prev := if l.prev.time = 0 then r else l.prev
  if r.time - prev.time < 1000000 then
    (⟨r, l.buf ++ r.data⟩, none)
  else
    (⟨r, r.data⟩, some ⟨prev.time, prev.write, l.buf⟩)

/-- The loop over the decoded rows, serialrecordingtohex.go 60-77: one combiner per direction, the
combined rows in order of appearance. -/
def combineAll (rd wr : Combiner) : List RecRow → List RecRow
  | [] => []
  | r :: rs =>
    if r.write = false then
      match combine rd r with
      | (rd', some c) => c :: combineAll rd' wr rs
      | (rd', none) => combineAll rd' wr rs
    else
      match combine wr r with
      | (wr', some c) => c :: combineAll rd wr' rs
      | (wr', none) => combineAll rd wr' rs

/-- What the tool prints, serialrecordingtohex.go 79-94: `sorted` is the result of `sort.Sort` (not
stable, so any ordering of the combined rows by time), filtered by the two flags. -/
def printed (read write : Bool) (sorted : List RecRow) : List RecRow :=
  sorted.filter fun r => ¬ (r.write = false ∧ read = false) ∧ ¬ (r.write = true ∧ write = false)

end Verif.Model
