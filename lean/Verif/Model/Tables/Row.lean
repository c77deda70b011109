/-
Format of the rows of the generated device table.
-/

namespace Verif.Model.Tables

/-- `cs! "text"` is the list of the characters of the text, written out (`"text".toList` is slow in the
kernel). -/
syntax "cs! " str : term

macro_rules
  | `(cs! $s:str) => do
    let cs := s.getString.toList.map Lean.Syntax.mkCharLit
    if cs.isEmpty then `(([] : List Char)) else `([$(cs.toArray),*])

/-- One case of the switch in `New` with the device its constructor returns, database/devices.go. A
command class is one number: ID, then the bits InNIF (256), Secure (512), NonSecure (1024), then 4096
times (1 + Version), 0 if there is no version. -/
structure DevRow where
  key : List Char
  brand : String
  product : String
  description : String
  manufacturerID : List Char
  productType : List Char
  productID : List Char
  classes : List Nat
deriving DecidableEq, Repr, Inhabited

end Verif.Model.Tables
