import Verif.Model.Serial
import Verif.Spec.Frame

/-
Specification of report payloads, independent of how the model decodes them: tables of accepted
(command class, command, length) triples, numeral readings, two's complement.
-/

namespace Verif.Spec

open Verif.Model

/-- The kinds of report. -/
inductive Kind where
  | alarm | manufacturer | endpoints | sensor
  | binaryV1 | binaryV2 | multilevelV1 | multilevelV4 | wakeUp
deriving DecidableEq, Repr

/-- The kind of a report value. -/
def kindOf : Report → Kind
  | .alarm _ => .alarm
  | .manufacturerSpecific _ => .manufacturer
  | .multiChannelEndpoints _ => .endpoints
  | .sensorMultiLevel _ => .sensor
  | .switchBinaryV1 .. => .binaryV1
  | .switchBinaryV2 .. => .binaryV2
  | .switchMultilevelV1 .. => .multilevelV1
  | .switchMultilevelV4 .. => .multilevelV4
  | .wakeUp => .wakeUp

/-- The documented table: command class, command (`none`: any), kind. -/
def classTable : List (UInt8 × Option UInt8 × Kind) :=
  [(0x71, some 0x05, .alarm), (0x72, some 0x05, .manufacturer), (0x60, some 0x08, .endpoints),
   (0x31, some 0x05, .sensor), (0x25, some 0x03, .binaryV1), (0x25, some 0x03, .binaryV2),
   (0x26, some 0x03, .multilevelV1), (0x26, some 0x03, .multilevelV4), (0x84, none, .wakeUp)]

/-- The payload lengths a report of each kind needs. -/
def lengthFits (k : Kind) (d : List UInt8) : Prop :=
  match k with
  | .alarm | .endpoints => 2 ≤ d.length
  | .manufacturer => d.length = 6
  | .sensor => ∃ t c rest, d = t :: c :: rest ∧ c.toNat % 8 ≤ rest.length
  | .binaryV1 | .multilevelV1 => d.length = 1
  | .binaryV2 | .multilevelV4 => d.length = 3
  | .wakeUp => True

/-- Command class `c`, command `k` and payload `d` announce a report of kind `kd`. -/
def Announces (kd : Kind) (c k : UInt8) (d : List UInt8) : Prop :=
  ((c, some k, kd) ∈ classTable ∨ (c, none, kd) ∈ classTable) ∧ lengthFits kd d

/-- Value of a hexadecimal digit. -/
def hexVal (c : Char) : Nat :=
  if '0' ≤ c ∧ c ≤ '9' then c.toNat - '0'.toNat else c.toNat - 'a'.toNat + 10

/-- Value of a hexadecimal numeral. -/
def hexNum (s : List Char) : Nat := s.foldl (fun a c => a * 16 + hexVal c) 0

/-- A lower-case hexadecimal digit. -/
def IsHexLower (c : Char) : Prop := ('0' ≤ c ∧ c ≤ '9') ∨ ('a' ≤ c ∧ c ≤ 'f')

instance (c : Char) : Decidable (IsHexLower c) := inferInstanceAs (Decidable (_ ∨ _))

/-- Big-endian unsigned value of a byte string. -/
def beNat (d : List UInt8) : Nat := d.foldl (fun a b => a * 256 + b.toNat) 0

/-- `v` is the two's complement value of the byte string `d`. -/
def TwosComplement (d : List UInt8) (v : Int) : Prop :=
  -(2 ^ (8 * d.length) : Nat) ≤ 2 * v ∧ 2 * v < (2 ^ (8 * d.length) : Nat) ∧
    v % (2 ^ (8 * d.length) : Nat) = beNat d

/-- The two's complement value is unique. -/
theorem TwosComplement.unique {d : List UInt8} {v w : Int} (hv : TwosComplement d v)
    (hw : TwosComplement d w) : v = w := by
  obtain ⟨h1, h2, h3⟩ := hv
  obtain ⟨h4, h5, h6⟩ := hw
  generalize ((2 ^ (8 * d.length) : Nat) : Int) = M at *
  have h7 : (v - w) % M = 0 := by
    rw [Int.sub_emod, h3, h6]; simp
  obtain ⟨k, hk⟩ := Int.dvd_of_emod_eq_zero h7
  have : k = 0 := by
    rcases Int.lt_trichotomy k 0 with h | h | h
    · have : M * k ≤ M * (-1) := Int.mul_le_mul_of_nonneg_left (by omega) (by omega)
      omega
    · exact h
    · have : M * 1 ≤ M * k := Int.mul_le_mul_of_nonneg_left (by omega) (by omega)
      omega
  subst this
  omega

/-- The documented sensor types 1 … 31. -/
def sensorNames : List String :=
  ["Temperature", "General", "Luminance", "Power", "RelativeHumidity", "Velocity", "Direction",
   "AtmosphericPressure", "BarometricPressure", "SolarRadiation", "DewPoint", "RainRate",
   "TideLevel", "Weight", "Voltage", "Current", "CO2", "AirFlow", "TankCapacity", "Distance",
   "AnglePosition", "Rotation", "WaterTemperature", "SoilTemperature", "SeismicIntensity",
   "SeismicMagnitude", "Ultraviolet", "ElectricalResistivity", "ElectricalConductivity",
   "Loudness", "Moisture"]

end Verif.Spec
