import Verif.Spec.Process
import Verif.Spec.Reports

/-
States on the wire, for C116.
-/

namespace Verif.Spec

open Verif.Go Verif.Model

/-- The name of sensor type `t` begins like this: the documented name, or that it is unknown. -/
def SensorName (t : UInt8) (s : List Char) : Prop :=
  (1 ≤ t.toNat ∧ ∃ d, sensorNames[t.toNat - 1]? = some d ∧ s = d.toList) ∨
    ((t.toNat = 0 ∨ 31 < t.toNat) ∧ ∃ r, s = "Unknown (".toList ++ r)

/-- Frame `f` is a sensor report of node `b` with the reading `q`; the key is the name of the type, an underscore and a unit,
in lower case. -/
def WireSensor (f : List UInt8) (b : UInt8) (key : List Char) (q : Rat) : Prop :=
  ∃ (t c : UInt8) (rest : List UInt8) (v : Int) (name unit : List Char), CarriesCmd f b 0x31 0x05 (t :: c :: rest) ∧
    (c.toNat % 8 = 1 ∨ c.toNat % 8 = 2 ∨ c.toNat % 8 = 4) ∧ c.toNat % 8 ≤ rest.length ∧
    TwosComplement (rest.take (c.toNat % 8)) v ∧ q * (10 ^ (c.toNat / 32) : Nat) = v ∧
    SensorName t name ∧ key = (name ++ "_".toList ++ unit).map Char.toLower

/-- Frame `f` is a sensor report of node `b` whose value has a size that does not exist. -/
def BadSensor (f : List UInt8) (b : UInt8) : Prop :=
  ∃ (t c : UInt8) (rest : List UInt8), CarriesCmd f b 0x31 0x05 (t :: c :: rest) ∧
    ¬ (c.toNat % 8 = 1 ∨ c.toNat % 8 = 2 ∨ c.toNat % 8 = 4)

/-- Frame `f` is a command of endpoint `e` of node `b`: Multi Channel Command Encapsulation, version 3. -/
def FromEndpoint (f : List UInt8) (b e cls cmd : UInt8) (payload : List UInt8) : Prop :=
  ∃ dst, CarriesCmd f b 0x60 0x0D (e :: dst :: cls :: cmd :: payload)

/-- The frame says that the switch of endpoint `e` of node `b` is on or off. -/
def EndpointOn (f : List UInt8) (b e : UInt8) (x : Bool) : Prop := ∃ v, FromEndpoint f b e 0x25 0x03 [v] ∧ x = decide (v = 0xFF)

end Verif.Spec
