import Verif.Model.Tables.Row

/-
encoding/json as the configuration file uses it (controller.go 150-155 and 183, nodes/list.go 70-92):
the text `json.MarshalIndent(v, "", "\t")` makes of a value, and the values `Decoder.Decode` reads from a
text. This part of Go's standard library is not in /repo; it is modelled after its documentation and
RFC 8259.

A text is a list of characters. Not modelled: text that is not UTF-8 (Go replaces bad bytes by U+FFFD),
Go's limit of 10000 nested values. `\b` and `\f` are written as `\u0008` and `\u000c`, as Go did before
1.22; both forms are read alike.
-/

namespace Verif.Model

open Tables

mutual
/-- A JSON value. Numbers keep their text. -/
inductive Json where
  | null
  | bool (b : Bool)
  | num (lit : List Char)
  | str (s : List Char)
  | arr (xs : JList)
  | obj (ms : JMems)
/-- The elements of an array. -/
inductive JList where
  | nil
  | cons (x : Json) (xs : JList)
/-- The members of an object, in order. -/
inductive JMems where
  | nil
  | cons (k : List Char) (v : Json) (ms : JMems)
end

/-- The elements as a list. -/
def JList.toList : JList → List Json
  | .nil => []
  | .cons x xs => x :: xs.toList

/-- An array with these elements. -/
def JList.ofList : List Json → JList
  | [] => .nil
  | x :: xs => .cons x (ofList xs)

/-- The members as a list. -/
def JMems.toList : JMems → List (List Char × Json)
  | .nil => []
  | .cons k v ms => (k, v) :: ms.toList

/-- An object with these members. -/
def JMems.ofList : List (List Char × Json) → JMems
  | [] => .nil
  | (k, v) :: ms => .cons k v (ofList ms)

/-! ### Writing -/

/-- A hexadecimal digit as encoding/json writes it. -/
def jsonHex (n : Nat) : Char := (cs! "0123456789abcdef").getD n '?'

/-- `\uXXXX` -/
def uEsc (n : Nat) : List Char :=
  ['\\', 'u', jsonHex (n / 4096 % 16), jsonHex (n / 256 % 16), jsonHex (n / 16 % 16), jsonHex (n % 16)]

/-- One character inside a string literal. `<`, `>`, `&`, U+2028 and U+2029 are escaped too (`json.Marshal`
escapes HTML). -/
def escChar (c : Char) : List Char :=
  if c = '"' then ['\\', '"']
  else if c = '\\' then ['\\', '\\']
  else if c = '\n' then ['\\', 'n']
  else if c = '\r' then ['\\', 'r']
  else if c = '\t' then ['\\', 't']
  else if c.toNat < 0x20 ∨ c = '<' ∨ c = '>' ∨ c = '&' ∨ c.toNat = 0x2028 ∨ c.toNat = 0x2029 then uEsc c.toNat
  else [c]

/-- A string literal. -/
def quoted (s : List Char) : List Char := '"' :: (s.flatMap escChar ++ ['"'])

/-- A new line, indented by `d` tabs. -/
def newLine (d : Nat) : List Char := '\n' :: List.replicate d '\t'

mutual
/-- The text of a value at indentation `d`. -/
def Json.print (d : Nat) : Json → List Char
  | .null => cs! "null"
  | .bool true => cs! "true"
  | .bool false => cs! "false"
  | .num lit => lit
  | .str s => quoted s
  | .arr .nil => ['[', ']']
  | .arr (.cons x xs) => '[' :: (newLine (d + 1) ++ x.print (d + 1) ++ xs.print (d + 1) ++ newLine d ++ [']'])
  | .obj .nil => ['{', '}']
  | .obj (.cons k v ms) =>
    '{' :: (newLine (d + 1) ++ quoted k ++ [':', ' '] ++ v.print (d + 1) ++ ms.print (d + 1) ++ newLine d ++ ['}'])
/-- The further elements, each after a comma on a line of its own. -/
def JList.print (d : Nat) : JList → List Char
  | .nil => []
  | .cons x xs => ',' :: (newLine d ++ x.print d ++ xs.print d)
/-- The further members. -/
def JMems.print (d : Nat) : JMems → List Char
  | .nil => []
  | .cons k v ms => ',' :: (newLine d ++ quoted k ++ [':', ' '] ++ v.print d ++ ms.print d)
end

/-! ### Reading -/

/-- White space of JSON. -/
def isWs (c : Char) : Bool := c == ' ' || c == '\t' || c == '\n' || c == '\r'

/-- Skip white space. -/
def skipWs : List Char → List Char
  | [] => []
  | c :: s => if isWs c then skipWs s else c :: s

/-- The value of a hexadecimal digit, either case. -/
def hexVal (c : Char) : Option Nat :=
  if '0' ≤ c ∧ c ≤ '9' then some (c.toNat - 48)
  else if 'a' ≤ c ∧ c ≤ 'f' then some (c.toNat - 87)
  else if 'A' ≤ c ∧ c ≤ 'F' then some (c.toNat - 55)
  else none

/-- Four hexadecimal digits. -/
def hex4Val (a b c d : Char) : Option Nat :=
  (hexVal a).bind fun a => (hexVal b).bind fun b => (hexVal c).bind fun c => (hexVal d).bind fun d =>
  some (a * 4096 + b * 256 + c * 16 + d)

/-- A piece of a string literal: a character or a `\uXXXX`. -/
inductive StrPart where
  | ch (c : Char)
  | unit (n : Nat)
deriving DecidableEq, Repr, Inhabited

/-- The character after a backslash, other than `u`. -/
def simpleEsc (c : Char) : Option Char :=
  if c = '"' then some '"' else if c = '\\' then some '\\' else if c = '/' then some '/'
  else if c = 'b' then some (Char.ofNat 8) else if c = 'f' then some (Char.ofNat 12)
  else if c = 'n' then some '\n' else if c = 'r' then some '\r' else if c = 't' then some '\t'
  else none

/-- The pieces of a string literal after the opening quote, and what follows the closing quote. -/
def pParts : List Char → Option (List StrPart × List Char)
  | [] => none
  | '"' :: r => some ([], r)
  | '\\' :: 'u' :: a :: b :: c :: d :: r =>
    (hex4Val a b c d).bind fun n => (pParts r).map fun p => (.unit n :: p.1, p.2)
  | '\\' :: c :: r => (simpleEsc c).bind fun c => (pParts r).map fun p => (.ch c :: p.1, p.2)
  | c :: r => if c.toNat < 0x20 ∨ c = '\\' then none else (pParts r).map fun p => (.ch c :: p.1, p.2)

/-- U+FFFD -/
def replacement : Char := Char.ofNat 0xFFFD

/-- The string the pieces denote: surrogate pairs are put together, other surrogates become U+FFFD. -/
def joinParts : List StrPart → List Char
  | [] => []
  | .ch c :: r => c :: joinParts r
  | .unit n :: r =>
    if 0xD800 ≤ n ∧ n < 0xDC00 then
      match r with
      | .unit m :: r' =>
        if 0xDC00 ≤ m ∧ m < 0xE000 then
          Char.ofNat (0x10000 + (n - 0xD800) * 0x400 + (m - 0xDC00)) :: joinParts r'
        else replacement :: joinParts (.unit m :: r')
      | r => replacement :: joinParts r
    else if 0xDC00 ≤ n ∧ n < 0xE000 then replacement :: joinParts r
    else Char.ofNat n :: joinParts r

/-- A string literal after its opening quote. -/
def pString (s : List Char) : Option (List Char × List Char) := (pParts s).map fun p => (joinParts p.1, p.2)

/-- A decimal digit. -/
def isDig (c : Char) : Bool := '0' ≤ c && c ≤ '9'

/-- The digits at the front. -/
def digits : List Char → List Char × List Char
  | [] => ([], [])
  | c :: s => if isDig c then (c :: (digits s).1, (digits s).2) else ([], c :: s)

/-- The fraction of a number, if there is one. -/
def pFrac : List Char → Option (List Char × List Char)
  | '.' :: s => if (digits s).1 = [] then none else some ('.' :: (digits s).1, (digits s).2)
  | s => some ([], s)

/-- The sign of an exponent. -/
def expSign : List Char → List Char × List Char
  | '+' :: s => (['+'], s)
  | '-' :: s => (['-'], s)
  | s => ([], s)

/-- The exponent of a number, if there is one. -/
def pExp : List Char → Option (List Char × List Char)
  | c :: s =>
    if c = 'e' ∨ c = 'E' then
      if (digits (expSign s).2).1 = [] then none
      else some (c :: ((expSign s).1 ++ (digits (expSign s).2).1), (digits (expSign s).2).2)
    else some ([], c :: s)
  | [] => some ([], [])

/-- The minus sign of a number. -/
def numSign : List Char → List Char × List Char
  | '-' :: s => (['-'], s)
  | s => ([], s)

/-- A number: its text and what follows. -/
def pNumber (s : List Char) : Option (List Char × List Char) :=
  let sg := numSign s
  let i := digits sg.2
  if i.1 = [] ∨ (i.1.head? = some '0' ∧ i.1 ≠ ['0']) then none
  else (pFrac i.2).bind fun f => (pExp f.2).map fun e => (sg.1 ++ i.1 ++ f.1 ++ e.1, e.2)

/-- Expect the characters `w`. -/
def pWord (w s : List Char) : Option (List Char) :=
  if w.isPrefixOf s then some (s.drop w.length) else none

mutual
/-- A value, with a bound on the nesting and the number of elements. -/
def pValue : Nat → List Char → Option (Json × List Char)
  | 0, _ => none
  | n + 1, s =>
    match skipWs s with
    | [] => none
    | c :: r =>
      if c = '{' then
        if (skipWs r).head? = some '}' then some (.obj .nil, (skipWs r).tail)
        else (pMembers n r).map fun p => (.obj p.1, p.2)
      else if c = '[' then
        if (skipWs r).head? = some ']' then some (.arr .nil, (skipWs r).tail)
        else (pElems n r).map fun p => (.arr p.1, p.2)
      else if c = '"' then (pString r).map fun p => (.str p.1, p.2)
      else if c = 'n' then (pWord (cs! "ull") r).map fun r => (.null, r)
      else if c = 't' then (pWord (cs! "rue") r).map fun r => (.bool true, r)
      else if c = 'f' then (pWord (cs! "alse") r).map fun r => (.bool false, r)
      else (pNumber (c :: r)).map fun p => (.num p.1, p.2)
/-- The members of an object up to the closing brace; at least one. -/
def pMembers : Nat → List Char → Option (JMems × List Char)
  | 0, _ => none
  | n + 1, s =>
    match skipWs s with
    | [] => none
    | c :: r =>
      if c = '"' then
        (pString r).bind fun k =>
          if (skipWs k.2).head? = some ':' then
            (pValue n (skipWs k.2).tail).bind fun v =>
              if (skipWs v.2).head? = some ',' then
                (pMembers n (skipWs v.2).tail).map fun p => (.cons k.1 v.1 p.1, p.2)
              else if (skipWs v.2).head? = some '}' then some (.cons k.1 v.1 .nil, (skipWs v.2).tail)
              else none
          else none
      else none
/-- The elements of an array up to the closing bracket; at least one. -/
def pElems : Nat → List Char → Option (JList × List Char)
  | 0, _ => none
  | n + 1, s =>
    (pValue n s).bind fun v =>
      if (skipWs v.2).head? = some ',' then
        (pElems n (skipWs v.2).tail).map fun p => (.cons v.1 p.1, p.2)
      else if (skipWs v.2).head? = some ']' then some (.cons v.1 .nil, (skipWs v.2).tail)
      else none
end

/-- The first value in a text (`Decoder.Decode` ignores what follows it). `none`: the text is empty, ends
too early or is not JSON. The bound suffices: a value has no more parts than characters. -/
def parseJson (s : List Char) : Option Json := (pValue (2 * s.length + 2) s).map Prod.fst

end Verif.Model
