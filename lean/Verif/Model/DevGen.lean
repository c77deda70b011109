import Verif.Model.Database
import Verif.Model.Tools
import Verif.Model.Tables.Files

/-
The generator of database/devices.go.
-/

namespace Verif.Model

open Verif.Go Verif.Model.Tables

/-- `deviceRef.UnmarshalJSON`, generators/database/database.go 49-63, for the string read: type and id of
the product. With more than one colon both stay empty. -/
def parseRef (s : List Char) : List Char × List Char :=
  match splitOn ':' s with
  | [a] => (a, [])
  | [a, b] => (a, b)
  | _ => ([], [])

/-- The ids of one reference of a file. -/
def refIds (f : DevFile) (s : List Char) : Ids := (f.manufacturerID, (parseRef s).1, (parseRef s).2)

/-- What the template writes for one reference, generators/database/database.go 175-176 (the case) and
185-240 (the constructor): the strings as they read back (C62), the classes of the first endpoint (lines
288-298), `Parameters` left out. -/
def genRow (f : DevFile) (s : List Char) : DevRow :=
  { key := caseLabel (refIds f s), brand := f.name, product := f.label, description := f.description
    manufacturerID := f.manufacturerID, productType := (parseRef s).1, productID := (parseRef s).2
    classes := f.endpoints.head?.getD [] }

/-- The loop over the references of one file, generators/database/database.go 300-310; `idens` are the keys
of the map. Result: the map and the references kept. -/
def genRefs (f : DevFile) (idens : List (List Char)) : List (List Char) → List (List Char) × List (List Char)
  | [] => (idens, [])
  | s :: ss =>
    if (idens.any fun k => k == iden (refIds f s)) then genRefs f idens ss
    else
      let r := genRefs f (iden (refIds f s) :: idens) ss
      (r.1, s :: r.2)

/-- The loop over the files, generators/database/database.go 273-316, and the template over its result
(files without a reference left are skipped there, lines 312-315, and write nothing here). -/
def genDevices (idens : List (List Char)) : List DevFile → List DevRow
  | [] => []
  | f :: fs => ((genRefs f idens f.refs).2.map (genRow f)) ++ genDevices (genRefs f idens f.refs).1 fs

end Verif.Model
