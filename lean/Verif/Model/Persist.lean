import Verif.Model.Json
import Verif.Model.Controller

/-
Saving and loading the configuration: controller.go 134-189, nodes/list.go 70-92, and the parts of
encoding/json they use.

State values are exact rationals here and float64 in Go. The values the library stores are sensor readings
(at most 31 bits, at most seven decimals), levels and alarm types. For these, Go's shortest form of the
float64 nearest to the number is the decimal of the number itself (a decimal of at most 15 digits is the
only one of its length that reads back as its nearest float64), which is what `fmtFloat` writes; other
values are cut after seven decimals.

A JSON object that has two members for one field of a Go struct is not modelled (outcome `dup`): Go then
decodes the second value into what the first one left. For Go maps the last member counts, which is
modelled.
-/

namespace Verif.Model

open Verif.Go Tables

/-! ### Writing -/

/-- `strconv.Itoa` -/
def intLit : Int → List Char
  | .ofNat n => itoa n
  | .negSucc n => '-' :: itoa (n + 1)

/-- Remove trailing zeros. -/
def trimZeros (s : List Char) : List Char := (s.reverse.dropWhile (· == '0')).reverse

/-- Seven decimals. -/
def sevenDigits (n : Nat) : List Char :=
  [1000000, 100000, 10000, 1000, 100, 10, 1].map fun p => Nat.digitChar (n / p % 10)

/-- A number of ten-millionths as encoding/json writes a float64: below 1e-6 with an exponent. -/
def fmtTenMillionths (m : Nat) : List Char :=
  if m = 0 then ['0']
  else if m < 10 then [Nat.digitChar m, 'e', '-', '7']
  else
    let f := trimZeros (sevenDigits (m % 10000000))
    itoa (m / 10000000) ++ (if f = [] then [] else '.' :: f)

/-- The text of a float64. -/
def fmtFloat (q : Rat) : List Char :=
  let m := (q * 10000000).num
  if m < 0 then '-' :: fmtTenMillionths m.natAbs else fmtTenMillionths m.natAbs

/-- The order of Go strings. -/
def charsLe : List Char → List Char → Bool
  | [], _ => true
  | _ :: _, [] => false
  | a :: s, b :: t => if a.toNat < b.toNat then true else if b.toNat < a.toNat then false else charsLe s t

/-- Insert into a sorted list of members. -/
def insertKey {α : Type} (e : List Char × α) : List (List Char × α) → List (List Char × α)
  | [] => [e]
  | x :: r => if charsLe e.1 x.1 then e :: x :: r else x :: insertKey e r

/-- encoding/json writes maps in the order of their keys. -/
def sortKeys {α : Type} : List (List Char × α) → List (List Char × α)
  | [] => []
  | e :: r => insertKey e (sortKeys r)

/-- An object. -/
def jObj (ms : List (List Char × Json)) : Json := .obj (JMems.ofList ms)

/-- A map, nil as null. -/
def mapJson {ν : Type} (f : ν → Json) : Option (GoMap (List Char) ν) → Json
  | none => .null
  | some m => jObj ((sortKeys m).map fun e => (e.1, f e.2))

/-- A slice, nil as null. -/
def sliceJson {α : Type} (f : α → Json) : Option (List α) → Json
  | none => .null
  | some xs => .arr (JList.ofList (xs.map f))

/-- A pointer. -/
def ptrJson {α : Type} (f : α → Json) : Option α → Json
  | none => .null
  | some x => f x

/-- database/types.go 5-12 -/
def classJson (c : CommandClass) : Json :=
  jObj [(cs! "ID", .num (itoa c.id.toNat)), (cs! "InNIF", .bool c.inNIF), (cs! "Secure", .bool c.secure),
        (cs! "NonSecure", .bool c.nonSecure), (cs! "Version", .str c.version)]

/-- commands/reports/manufacturer_specific.go 10-15; the embedded pointer has no exported field. -/
def manufacturerJson (m : ManufacturerSpecific) : Json :=
  jObj [(cs! "manufacturer", .str m.manufacturer), (cs! "type", .str m.type), (cs! "id", .str m.id)]

/-- nodes/endpoints.go 10-18; the back pointer is not exported. -/
def endpointJson (e : Endpoint) : Json :=
  jObj [(cs! "Id", .num (intLit e.id)), (cs! "CommandClasses", sliceJson classJson e.classes),
        (cs! "StateBool", mapJson .bool e.stateBool),
        (cs! "StateFloat", mapJson (fun q => .num (fmtFloat q)) e.stateFloat)]

/-- The exported fields of a node, nodes/node.go 30-59. -/
def nodeJson (n : Node) : Json :=
  jObj [(cs! "id", .num (intLit n.id)), (cs! "is_awake", .bool n.isAwake),
        (cs! "ManufacurerSpecific", ptrJson manufacturerJson n.manufacturer),
        (cs! "Brand", .str n.brand), (cs! "Product", .str n.product), (cs! "Description", .str n.description),
        (cs! "CommandClasses", sliceJson classJson n.classes),
        (cs! "Endpoints", sliceJson endpointJson n.endpoints),
        (cs! "StateBool", mapJson .bool n.stateBool),
        (cs! "StateFloat", mapJson (fun q => .num (fmtFloat q)) n.stateFloat)]

/-- `List.MarshalJSON`, nodes/list.go 70-78: a map from `strconv.Itoa(k)` to the node. -/
def listJson (l : GoMap Int Node) : Json := mapJson nodeJson (some (l.map fun e => (intLit e.1, e.2)))

/-- A controller, controller.go 18-28: only `Nodes` is exported and not excluded. -/
def controllerJson (l : GoMap Int Node) : Json := jObj [(cs! "Nodes", listJson l)]

/-- What `SaveConfigurationToFile` writes, controller.go 149-155; the second indentation changes
nothing. -/
def saveText (l : GoMap Int Node) : List Char := (controllerJson l).print 0

/-! ### Reading -/

/-- The result of decoding into a Go value. -/
inductive Dec (α : Type) where
  | ok (a : α)
  /-- `json.UnmarshalTypeError` -/
  | err
  /-- two members for one field -/
  | dup
deriving DecidableEq, Repr, Inhabited

/-- Sequencing. -/
def Dec.bind {α β : Type} : Dec α → (α → Dec β) → Dec β
  | .ok a, f => f a
  | .err, _ => .err
  | .dup, _ => .dup

/-- An optional result. -/
def Dec.ofOption {α : Type} : Option α → Dec α
  | some a => .ok a
  | none => .err

/-- Decode all elements. -/
def Dec.all {α β : Type} (f : α → Dec β) : List α → Dec (List β)
  | [] => .ok []
  | x :: xs => (f x).bind fun y => (Dec.all f xs).bind fun ys => .ok (y :: ys)

/-- Case folding of member names in encoding/json: ASCII letters, and the two other characters that fold
to ASCII letters. -/
def foldChar (c : Char) : Char :=
  if c.toNat = 0x17F then 's' else if c.toNat = 0x212A then 'k' else c.toLower

/-- Whether a member is for the field `f`. -/
def sameKey (k f : List Char) : Bool := k.map foldChar == f.map foldChar

/-- The member for a field of a struct. -/
def field (ms : List (List Char × Json)) (f : List Char) : Dec (Option Json) :=
  match ms.filter fun m => sameKey m.1 f with
  | [] => .ok none
  | [m] => .ok (some m.2)
  | _ => .dup

/-- `strconv.ParseInt(lit, 10, 64)` -/
def intOf (lit : List Char) : Option Int :=
  let ds := (numSign lit).2
  if ds.all isDig then
    let v : Int := Nat.ofDigitChars 10 ds 0
    let v := if (numSign lit).1 = [] then v else -v
    if -(2 ^ 63) ≤ v ∧ v < 2 ^ 63 then some v else none
  else none

/-- `strconv.ParseUint(lit, 10, 64)` and the range of a byte. -/
def byteOf (lit : List Char) : Option UInt8 :=
  if lit.all isDig then
    let v := Nat.ofDigitChars 10 lit 0
    if v < 256 then some (UInt8.ofNat v) else none
  else none

/-- The digits of a fraction. -/
def fracOf : List Char → List Char × List Char
  | '.' :: s => digits s
  | s => ([], s)

/-- The value of an exponent. -/
def expOf : List Char → Int
  | [] => 0
  | _ :: s =>
    let v : Int := Nat.ofDigitChars 10 (expSign s).2 0
    if (expSign s).1 = ['-'] then -v else v

/-- `strconv.ParseFloat(lit, 64)` for a JSON number, without rounding; numbers that round to infinity are
errors. -/
def floatOf (lit : List Char) : Option Rat :=
  let i := digits (numSign lit).2
  let f := fracOf i.2
  let e := expOf f.2 - f.1.length
  let m : Rat := (Nat.ofDigitChars 10 (i.1 ++ f.1) 0 : Nat)
  let v := if 0 ≤ e then m * (10 ^ e.toNat : Nat) else m / (10 ^ (-e).toNat : Nat)
  if v < ((2 ^ 1024 - 2 ^ 970 : Nat) : Rat) then some (if (numSign lit).1 = [] then v else -v) else none

/-- An `int`; null and absent leave 0. -/
def dInt : Option Json → Dec Int
  | none | some .null => .ok 0
  | some (.num l) => .ofOption (intOf l)
  | _ => .err

/-- A `byte`. -/
def dByte : Option Json → Dec UInt8
  | none | some .null => .ok 0
  | some (.num l) => .ofOption (byteOf l)
  | _ => .err

/-- A `bool`. -/
def dBool : Option Json → Dec Bool
  | none | some .null => .ok false
  | some (.bool b) => .ok b
  | _ => .err

/-- A `string`. -/
def dStr : Option Json → Dec (List Char)
  | none | some .null => .ok []
  | some (.str s) => .ok s
  | _ => .err

/-- A `float64`. -/
def dFloat : Option Json → Dec Rat
  | none | some .null => .ok 0
  | some (.num l) => .ofOption (floatOf l)
  | _ => .err

/-- A pointer to a struct; null is nil. -/
def dPtr {α : Type} (f : List (List Char × Json) → Dec α) : Option Json → Dec (Option α)
  | none | some .null => .ok none
  | some (.obj ms) => (f ms.toList).bind fun a => .ok (some a)
  | _ => .err

/-- A slice of pointers to structs; null is nil. -/
def dSlice {α : Type} (f : List (List Char × Json) → Dec α) : Option Json → Dec (Option (List (Option α)))
  | none | some .null => .ok none
  | some (.arr xs) => (Dec.all (fun x => dPtr f (some x)) xs.toList).bind fun ys => .ok (some ys)
  | _ => .err

/-- A map from strings; null is nil, a later member replaces an earlier one. -/
def dMap {ν : Type} (f : Json → Dec ν) : Option Json → Dec (Option (GoMap (List Char) ν))
  | none | some .null => .ok none
  | some (.obj ms) =>
    (Dec.all (fun m => (f m.2).bind fun v => .ok (m.1, v)) ms.toList).bind fun es =>
      .ok (some (es.foldl (fun m e => GoMap.set m e.1 e.2) []))
  | _ => .err

/-- database/types.go 5-12 -/
def classOf (ms : List (List Char × Json)) : Dec CommandClass :=
  ((field ms (cs! "ID")).bind dByte).bind fun id =>
  ((field ms (cs! "InNIF")).bind dBool).bind fun inNIF =>
  ((field ms (cs! "Secure")).bind dBool).bind fun secure =>
  ((field ms (cs! "NonSecure")).bind dBool).bind fun nonSecure =>
  ((field ms (cs! "Version")).bind dStr).bind fun version =>
  .ok { id := id, inNIF := inNIF, secure := secure, nonSecure := nonSecure, version := version }

/-- commands/reports/manufacturer_specific.go 10-15 -/
def manufacturerOf (ms : List (List Char × Json)) : Dec ManufacturerSpecific :=
  ((field ms (cs! "manufacturer")).bind dStr).bind fun m =>
  ((field ms (cs! "type")).bind dStr).bind fun t =>
  ((field ms (cs! "id")).bind dStr).bind fun i =>
  .ok { manufacturer := m, type := t, id := i }

/-- An endpoint as it is read: classes may be nil pointers. -/
structure JEndpoint where
  id : Int
  classes : Option (List (Option CommandClass))
  stateBool : Option (GoMap (List Char) Bool)
  stateFloat : Option (GoMap (List Char) Rat)
deriving DecidableEq, Repr, Inhabited

/-- A node as it is read: classes and endpoints may be nil pointers. -/
structure JNode where
  id : Int
  isAwake : Bool
  manufacturer : Option ManufacturerSpecific
  brand : List Char
  product : List Char
  description : List Char
  classes : Option (List (Option CommandClass))
  endpoints : Option (List (Option JEndpoint))
  stateBool : Option (GoMap (List Char) Bool)
  stateFloat : Option (GoMap (List Char) Rat)
deriving DecidableEq, Repr, Inhabited

/-- nodes/endpoints.go 10-18 -/
def endpointOf (ms : List (List Char × Json)) : Dec JEndpoint :=
  ((field ms (cs! "Id")).bind dInt).bind fun id =>
  ((field ms (cs! "CommandClasses")).bind (dSlice classOf)).bind fun cs =>
  ((field ms (cs! "StateBool")).bind (dMap fun j => dBool (some j))).bind fun sb =>
  ((field ms (cs! "StateFloat")).bind (dMap fun j => dFloat (some j))).bind fun sf =>
  .ok { id := id, classes := cs, stateBool := sb, stateFloat := sf }

/-- nodes/node.go 30-59 -/
def nodeOf (ms : List (List Char × Json)) : Dec JNode :=
  ((field ms (cs! "id")).bind dInt).bind fun id =>
  ((field ms (cs! "is_awake")).bind dBool).bind fun aw =>
  ((field ms (cs! "ManufacurerSpecific")).bind (dPtr manufacturerOf)).bind fun man =>
  ((field ms (cs! "Brand")).bind dStr).bind fun brand =>
  ((field ms (cs! "Product")).bind dStr).bind fun product =>
  ((field ms (cs! "Description")).bind dStr).bind fun description =>
  ((field ms (cs! "CommandClasses")).bind (dSlice classOf)).bind fun cs =>
  ((field ms (cs! "Endpoints")).bind (dSlice endpointOf)).bind fun es =>
  ((field ms (cs! "StateBool")).bind (dMap fun j => dBool (some j))).bind fun sb =>
  ((field ms (cs! "StateFloat")).bind (dMap fun j => dFloat (some j))).bind fun sf =>
  .ok { id := id, isAwake := aw, manufacturer := man, brand := brand, product := product
        description := description, classes := cs, endpoints := es, stateBool := sb, stateFloat := sf }

/-- `List.Add` for a node that was read, nodes/list.go 23-38: panics if the node or one of its endpoints
is nil. -/
def addRead (m : GoMap Int JNode) : Option JNode → Res (GoMap Int JNode)
  | none => .error .nilDeref
  | some n => if (n.endpoints.getD []).all Option.isSome then .ok (m.set n.id n) else .error .nilDeref

/-- The loop of `UnmarshalJSON`, nodes/list.go 87-89. -/
def addAll (m : GoMap Int JNode) : List (Option JNode) → Res (GoMap Int JNode)
  | [] => .ok m
  | n :: ns => (addRead m n).bind fun m => addAll m ns

/-- What `loadConfigurationFromFile` returns, controller.go 175-189. -/
inductive ReadRes where
  /-- an error -/
  | err
  /-- a panic in `List.Add` -/
  | panic
  /-- a nil controller (the file says `null`) -/
  | nilController
  /-- a controller whose `Nodes` is nil -/
  | nilNodes
  | nodes (l : GoMap Int JNode)
  /-- not modelled -/
  | dup
deriving DecidableEq, Repr, Inhabited

/-- The order in which Go ranges over a map: any permutation. -/
structure Order where
  run : {α : Type} → List α → List α
  perm : ∀ {α : Type} (l : List α), (run l).Perm l

/-- `List.UnmarshalJSON`, nodes/list.go 80-92. -/
def listOf (o : Order) (j : Json) : ReadRes :=
  match dMap (fun j => dPtr nodeOf (some j)) (some j) with
  | .err => .err
  | .dup => .dup
  | .ok s =>
    match addAll [] (o.run ((s.getD []).map Prod.snd)) with
    | .error _ => .panic
    | .ok m => .nodes m

/-- `loadConfigurationFromFile`, controller.go 175-189; `none` is a file that cannot be opened. -/
def readConfig (o : Order) : Option (List Char) → ReadRes
  | none => .err
  | some s =>
    match parseJson s with
    | none => .err
    | some .null => .nilController
    | some (.obj ms) =>
      match field ms.toList (cs! "Nodes") with
      | .err => .err
      | .dup => .dup
      | .ok none | .ok (some .null) => .nilNodes
      | .ok (some j) => listOf o j
    | some _ => .err

/-- All elements, if none is missing. -/
def allSome {α : Type} : List (Option α) → Option (List α)
  | [] => some []
  | none :: _ => none
  | some x :: r => (allSome r).map (x :: ·)

/-- A slice of pointers without nil, or nil. -/
def noNil {α : Type} : Option (List (Option α)) → Option (Option (List α))
  | none => some none
  | some xs => (allSome xs).map some

/-- An endpoint without nil classes. -/
def JEndpoint.toEndpoint (e : JEndpoint) : Option Endpoint :=
  (noNil e.classes).map fun cs =>
    { id := e.id, classes := cs, stateBool := e.stateBool, stateFloat := e.stateFloat, linked := false }

/-- A node without nil classes and endpoints; what is not in the file has its zero value. -/
def JNode.toNode (n : JNode) : Option Node :=
  (noNil n.classes).bind fun cs => (noNil n.endpoints).bind fun es =>
  (noNil (es.map fun es => es.map JEndpoint.toEndpoint)).map fun es =>
    { id := n.id, isAwake := n.isAwake, manufacturer := n.manufacturer, brand := n.brand
      product := n.product, description := n.description, classes := cs, endpoints := es
      stateBool := n.stateBool, stateFloat := n.stateFloat }

/-- What `LoadConfigurationFromFile` does. -/
inductive LoadRes where
  /-- it returns; whether with an error, and the controller afterwards -/
  | ret (failed : Bool) (c : CSt)
  | panic
  /-- not modelled: two members for one field, or a command class that is `null` (a nil pointer that
  `HasCommand` dereferences later) -/
  | outside

/-- `LoadConfigurationFromFile`, controller.go 159-174. `o` is the order of the range in `UnmarshalJSON`,
`o'` that of the range over `All()`. -/
def loadConfig (o o' : Order) (file : Option (List Char)) (c : CSt) : LoadRes :=
  match readConfig o file with
  | .err => .ret true c
  | .panic | .nilController | .nilNodes => .panic
  | .dup => .outside
  | .nodes l =>
    match allSome ((o'.run (l.map Prod.snd)).map JNode.toNode) with
    | none => .outside
    | some ns => .ret false (c.loadNodes ns)

/-- `c.Nodes.All()` with the nodes it points to. -/
def CSt.nodes (c : CSt) : GoMap Int Node := c.list.map fun e => (e.1, (c.heap e.2).node)

/-! ### Saving -/

/-- Where `SaveConfigurationToFile` is, controller.go 134-158. -/
inductive SaveAt where
  /-- 135: the file is compared with the controller (never equal: what is read has no file name) -/
  | compare
  /-- 142: `os.Create` -/
  | create
  /-- 155: `out.WriteTo(configFile)`; what is still to be written -/
  | write (rest : List Char)
  /-- 157: `return nil`; whether the whole text was written -/
  | done (written : Bool)
  | panicked
deriving DecidableEq, Repr, Inhabited

/-- A save in progress and the contents of the file (`none`: no such file). -/
structure SaveSt where
  at_ : SaveAt
  file : Option (List Char)
deriving DecidableEq, Repr, Inhabited

/-- What the operating system does. -/
inductive SaveOp where
  | go
  /-- the system call fails -/
  | fail
  /-- `n` characters reach the file -/
  | put (n : Nat)
deriving DecidableEq, Repr, Inhabited

/-- One step of `SaveConfigurationToFile`. Errors of `os.Create` and `WriteTo` are not returned; on a file
that could not be created `WriteTo` fails. -/
def saveStep (o : Order) (text : List Char) (s : SaveSt) (op : SaveOp) : Option SaveSt :=
  match s.at_, op with
  | .compare, .go =>
    match readConfig o s.file with
    | .panic => some { s with at_ := .panicked }
    | _ => some { s with at_ := .create }
  | .create, .go => some { at_ := .write text, file := some [] }
  | .create, .fail => some { s with at_ := .done false }
  | .write rest, .put n => some { at_ := .write (rest.drop n), file := s.file.map (· ++ rest.take n) }
  | .write [], .go => some { s with at_ := .done true }
  | .write (_ :: _), .fail => some { s with at_ := .done false }
  | _, _ => none

/-- A sequence of steps. -/
def saveRun (o : Order) (text : List Char) (s : SaveSt) : List SaveOp → Option SaveSt
  | [] => some s
  | op :: ops => (saveStep o text s op).bind fun s => saveRun o text s ops

end Verif.Model
