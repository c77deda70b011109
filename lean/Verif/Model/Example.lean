import Verif.Model.Persist

/-
zwave-example/example.go: the handlers of the web interface (66-125).

A handler gets the text of the path parameters and answers with a status; what it hands to
`connection.Write` is listed. The routing, the log, the bodies of error answers and the server are gin's and
are not modelled. A panic in a handler is an error here (gin's recovery answers 500). Each `z.Nodes.Get` may
see a different list.
-/

namespace Verif.Model.Web

open Verif.Go Verif.Model

/-- The loop over the digits in `strconv.Atoi`. -/
def atoiDigits : Nat → List Char → Option Nat
  | v, [] => some v
  | v, c :: s => if isDig c then atoiDigits (10 * v + (c.toNat - 48)) s else none

/-- `strconv.Atoi` on a 64 bit machine, after the sign: at least one digit, and the value is in range. -/
def atoiFrom (neg : Bool) (ds : List Char) : Option Int :=
  if ds = [] then none
  else
    match atoiDigits 0 ds with
    | none => none
    | some v =>
      let i : Int := if neg then -(v : Int) else v
      if -(2 ^ 63) ≤ i ∧ i < 2 ^ 63 then some i else none

/-- `strconv.Atoi`: a sign may come first. -/
def atoi (t : List Char) : Option Int :=
  if t.head? = some '-' then atoiFrom true t.tail
  else if t.head? = some '+' then atoiFrom false t.tail
  else atoiFrom false t

/-- An answer: the status, the node in the body if there is one, and the commands given meanwhile. -/
structure Reply where
  status : Nat
  node : Option Node := none
  commands : List (List UInt8) := []
deriving DecidableEq, Repr, Inhabited

/-- `getNodes`, zwave-example/example.go 66-77: the object that is marshalled. -/
def getNodes (m : GoMap Int Node) : GoMap (List Char) Node :=
  m.foldl (fun r e => r.set (intLit e.1) e.2) []

/-- `getNode`, zwave-example/example.go 79-95 -/
def getNode (m : GoMap Int Node) (id : List Char) : Reply :=
  match atoi id with
  | none => { status := 500 }
  | some i =>
    match m.get i with
    | none => { status := 404 }
    | some n => { status := 200, node := some n }

/-- `control`, zwave-example/example.go 97-125; `m` is the list at 105 and `m'` the list at 115. -/
def controlNode (undef : Float64 → UInt8) (m m' : GoMap Int Node) (id action : List Char) : Res Reply :=
  match atoi id with
  | none => .ok { status := 500 }
  | some i =>
    match m.get i with
    | none => .ok { status := 404 }
    | some n =>
      if action = ['o', 'n'] then .ok { status := 200, commands := n.on undef }
      else if action = ['o', 'f', 'f'] then
        match m'.get i with
        | none => .error .nilDeref
        | some n' => .ok { status := 200, commands := n'.off undef }
      else .ok { status := 404 }

end Verif.Model.Web
