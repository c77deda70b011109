import Verif.Model.NodeM

/-
`IsDeviceClass`.
-/

namespace Verif.Model

open Verif.Go

/-- `Node.IsDeviceClass`, nodes/node.go 322-328. Each of the three calls of `ProtocolInfo` (nodes/protocol_info.go
11-16) takes the lock for itself and may find something else; `r1`, `r2`, `r3` is what they find. The third call is
not made if the generic type differs. -/
def isDeviceClass (r1 r2 r3 : Option ProtocolInfo) (generic specific : UInt8) : Res Bool :=
  match r1 with
  | none => .ok false
  | some _ =>
    match r2 with
    | none => .error .nilDeref
    | some p =>
      if p.generic = generic then
        match r3 with
        | none => .error .nilDeref
        | some q => .ok (q.specific == specific)
      else .ok false

end Verif.Model
