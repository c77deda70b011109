import Verif.Model.Tables.Row

/-
Format of the rows made from the device files.
-/

namespace Verif.Model.Tables

/-- What the generator reads of one file of database/json, generators/database/database.go 17-42 (`deviceData`;
`Parameters` and what is never used left out): manufacturer id, the strings of device_ref, manufacturer name,
label, description, and for each endpoint its command classes, coded as in `DevRow`. -/
structure DevFile where
  manufacturerID : List Char
  refs : List (List Char)
  name : String
  label : String
  description : String
  endpoints : List (List Nat)
deriving DecidableEq, Repr, Inhabited

end Verif.Model.Tables
