import Verif.Model.NodeM
import Verif.Model.Tables.Devices
import Verif.Model.Tables.Mandatory
import Verif.Model.Tables.Names

/-
Package database, the two `String` methods and the generator of the mandatory classes.
-/

namespace Verif.Model

open Verif.Go Verif.Model.Tables

/-! ### Devices -/

/-- A command class of the device table, database/types.go 5-12. -/
def devClass (c : Nat) : CommandClass :=
  { id := UInt8.ofNat (c % 256)
    inNIF := (c / 256) % 2 == 1
    secure := (c / 512) % 2 == 1
    nonSecure := (c / 1024) % 2 == 1
    version := if c / 4096 = 0 then [] else [Char.ofNat (c / 4096 - 1 + 48)] }

/-- What a constructor `NewXXXX_XXXX_XXXX` returns, database/devices.go 1450-end (`Parameters`
omitted). -/
def Tables.DevRow.toDevice (r : DevRow) : Device :=
  { brand := r.brand.toList, product := r.product.toList, description := r.description.toList
    classes := r.classes.map devClass
    manufacturerID := r.manufacturerID, productType := r.productType
    productID := r.productID }

/-- `New`, database/devices.go 31-1449: concatenates the ids and switches over the result. -/
def newDevice (rows : List DevRow) (m t p : List Char) : Option Device :=
  (rows.find? fun r => r.key == m ++ '_' :: (t ++ '_' :: p)).map Tables.DevRow.toDevice

/-! ### Mandatory classes -/

/-- The value of a constant of protocol/constants.go. -/
def typeConst (name : List Char) : Option UInt8 := (typeConsts.find? (·.1 == name)).map (·.2)

/-- The map `definitions`, database/mandatory.go 7-1014, as the literal evaluates: a later entry with
an equal key would replace an earlier one. -/
def mkDefinitions (rows : List ((List Char × List Char) × List UInt8)) : List ((UInt8 × UInt8) × List UInt8) :=
  rows.foldl (fun m r =>
    let k := ((typeConst r.1.1).getD 0, (typeConst r.1.2).getD 0)
    m.filter (fun e => e.1 ≠ k) ++ [(k, r.2)]) []

/-- `GetMandatoryCommandClasses`, database/commandclasses.go 4-11. `order` is the order in which the
`range` statement happens to visit the map. -/
def getMandatory (order : List ((UInt8 × UInt8) × List UInt8)) (g s : UInt8) : Option (List CommandClass) :=
  match order with
  | [] => none
  | (k, v) :: rest =>
    if k.1 = g ∧ k.2 = s then some (v.map fun i => ⟨i, false, false, false, []⟩)
    else getMandatory rest g s

/-- The database as the node sees it; the order of the map is a parameter. -/
def realDB (order : List ((UInt8 × UInt8) × List UInt8)) : DB :=
  { mandatory := getMandatory order, device := newDevice devRows }

/-! ### Names -/

/-- `ZWaveCommand.String`, commands/constants.go 163-258. -/
def commandName (b : UInt8) : List Char := ((commandCases.find? (·.1 == b)).map (·.2)).getD []

/-- `ZWaveFunction.String`, serialapi/types.go 83-239. -/
def functionName (b : UInt8) : List Char := ((functionCases.find? (·.1 == b)).map (·.2)).getD []

/-! ### Generator of the mandatory classes, generators/commandclasses/commandclasses.go -/

/-- `strings.Contains(s, p)`. -/
def contains (p : List Char) : List Char → Bool
  | [] => p.isEmpty
  | c :: cs => p.isPrefixOf (c :: cs) || contains p cs

/-- White space of `strings.TrimSpace` (the ASCII part; mandatory.txt has no other). -/
def isWhite (c : Char) : Bool := c == ' ' || c == '\t' || c == '\n' || c == '\r' || c == '\x0b' || c == '\x0c'

/-- `strings.TrimSpace` -/
def trimSpace (s : List Char) : List Char := ((s.dropWhile isWhite).reverse.dropWhile isWhite).reverse

/-- `strings.Split(s, c)` for one character. -/
def splitOn (c : Char) : List Char → List (List Char)
  | [] => [[]]
  | x :: xs =>
    if x = c then [] :: splitOn c xs
    else match splitOn c xs with
      | [] => [[x]]
      | y :: ys => (x :: y) :: ys

/-- `StringToByte`, generators/commandclasses/commandclasses.go 126-227: the first match counts. -/
def stringToByte (s : List Char) : UInt8 :=
  if contains (cs! "Application Status") s then 0x22
  else if contains (cs! "Association Group Information") s then 0x59
  else if contains (cs! "Association") s then 0x85
  else if s == (cs! "Basic") then 0x20
  else if contains (cs! "Binary Switch") s then 0x25
  else if contains (cs! "Central Scene") s then 0x5b
  else if contains (cs! "CRC16") s then 0x56
  else if contains (cs! "Device Reset Locally") s then 0x5a
  else if s == (cs! "Manufacturer Specific") then 0x72
  else if contains (cs! "Meter") s then 0x32
  else if contains (cs! "Multichannel Association") s then 0x8e
  else if contains (cs! "Multi Channel") s then 0x60
  else if contains (cs! "Multilevel Sensor") s then 0x31
  else if contains (cs! "Multilevel Switch") s then 0x26
  else if s == (cs! "Notification") then 0x71
  else if s == (cs! "Power Level") then 0x73
  else if contains (cs! "Security") s then 0x98
  else if contains (cs! "Version") s then 0x86
  else if contains (cs! "Z-Wave Plus Info") s then 0x5e
  else 0

/-- The variables of `main`, commandclasses.go 31-48: the map under construction (key
`generic|specific`), the pending definitions, the pending classes. -/
structure GenSt where
  out : GoMap (List Char × List Char) (List UInt8)
  defs : List (List Char × List Char)
  classes : List UInt8
deriving Inhabited

/-- One round of the scanner loop, commandclasses.go 50-81; `tmp[len(tmp)-2]` panics when the line has
no `-`. -/
def genLine (st : GenSt) (line : List Char) : Res GenSt :=
  let text := trimSpace line
  if text = [] then
    .ok { out := st.defs.foldl (fun m d => m.set d st.classes) st.out, defs := [], classes := [] }
  else if text.head? = some '#' then
    if contains (cs! "SPECIFIC_TYPE_NOT_USED") text then .ok st
    else match (splitOn '-' text).reverse with
      | b :: a :: _ => .ok { st with defs := st.defs ++ [(trimSpace a, trimSpace b)] }
      | _ => .error .index
  else if text.head? = some '-' then
    let x := stringToByte (trimSpace (text.dropWhile (· == '-')))
    if x = 0 then .ok st else .ok { st with classes := st.classes ++ [x] }
  else .ok st

/-- The loop over all lines, commandclasses.go 49-82. What is pending after the last line is dropped. -/
def genLines (st : GenSt) : List (List Char) → Res GenSt
  | [] => .ok st
  | l :: ls => (genLine st l).bind fun st' => genLines st' ls

/-- The map handed to the template, commandclasses.go 31-82. -/
def genMandatory (lines : List (List Char)) : Res (GoMap (List Char × List Char) (List UInt8)) :=
  (genLines ⟨[], [], []⟩ lines).bind fun st => .ok st.out

end Verif.Model
