import Verif.Go.Basic

/-
commands/duration.go and commands/reports/*.go.
Unexported bookkeeping (`data []byte` copies kept for `String()`, the nil embedded `*report`) is
left out of the structures; `SetNode` on it has no observable effect (report.go 18-25: the receiver
is nil and only the local variable is reassigned).
-/

namespace Verif.Model

open Verif.Go

/-- Command class constants, commands/constants.go 108-161 (those used by the modelled code). -/
def ccSwitchBinary : UInt8 := 0x25
/-- commands/constants.go 113 -/
def ccSwitchMultilevel : UInt8 := 0x26
/-- commands/constants.go 120 -/
def ccSensorMultiLevel : UInt8 := 0x31
/-- commands/constants.go 135 -/
def ccMultiInstance : UInt8 := 0x60
/-- commands/constants.go 138 -/
def ccAlarm : UInt8 := 0x71
/-- commands/constants.go 139 -/
def ccManufacturerSpecific : UInt8 := 0x72
/-- commands/constants.go 148 -/
def ccWakeUp : UInt8 := 0x84

/-- Go errors of the decoders.  Message texts are not modelled, only which check failed. -/
inductive Err where
  /-- message.go 55 -/
  | checksum
  /-- message.go 127 -/
  | dropping
  /-- a "to short"/"wrong length" check of a decoder -/
  | length
  /-- report.go 76 -/
  | unknown
  /-- duration.go 21 -/
  | factoryDefault
deriving DecidableEq, Repr, Inhabited

/-- A Go `(T, error)` pair as returned by the decoders: exactly one of the two is non-nil. -/
abbrev GoRet (α : Type) := Except Err α

/-- `Duration.Duration()`, commands/duration.go 12-22.  `time.Duration` is in seconds here (Go uses
nanoseconds; all values are whole seconds). -/
def duration (d : UInt8) : GoRet Nat :=
  if d = 0x00 then .ok 0
  else if d ≤ 0x7F then .ok d.toNat
  else if d ≤ 0xFD then .ok ((d - 0x7F).toNat * 60)
  else .error .factoryDefault

/-- commands/reports/alarm.go 6-16 -/
structure Alarm where
  type : UInt8
  level : UInt8
  sensorSourceID : UInt8
  sensorType : UInt8
  event : UInt8
  status : UInt8
deriving DecidableEq, Repr, Inhabited

/-- commands/reports/manufacturer_specific.go 10-15 (strings as character lists) -/
structure ManufacturerSpecific where
  manufacturer : List Char
  type : List Char
  id : List Char
deriving DecidableEq, Repr, Inhabited

/-- commands/reports/multi_instance_endpoint.go 9-14 -/
structure MultiChannelEndpoints where
  dynamic : Bool
  identical : Bool
  endpoints : Nat
deriving DecidableEq, Repr, Inhabited

/-- commands/reports/sensor_multi_level.go 50-61.  `value` is the exact rational; rounding of the
float64 division is not modelled. -/
structure SensorMultiLevel where
  valueType : UInt8
  size : UInt8
  scale : UInt8
  precision : UInt8
  value : Rat
  typeString : List Char
  unit : List Char
deriving DecidableEq, Repr, Inhabited

/-- All report types, commands/reports/*.go.  Levels of multilevel switches are whole numbers, so
float64 is exact for them. -/
inductive Report where
  | alarm (a : Alarm)
  | manufacturerSpecific (m : ManufacturerSpecific)
  | multiChannelEndpoints (m : MultiChannelEndpoints)
  | sensorMultiLevel (s : SensorMultiLevel)
  /-- switch_binary.go 13-19 -/
  | switchBinaryV1 (current valid : Bool)
  /-- switch_binary.go 43-50 -/
  | switchBinaryV2 (current target : Bool) (duration : UInt8)
  /-- switch_multilevel.go 13-18 -/
  | switchMultilevelV1 (current : Nat) (valid : Bool)
  /-- switch_multilevel.go 44-52 -/
  | switchMultilevelV4 (current target : Nat) (duration : UInt8) (valid targetValid : Bool)
  /-- wakeup.go 6-8 -/
  | wakeUp
deriving DecidableEq, Repr, Inhabited

/-- `NewAlarm`, commands/reports/alarm.go 19-41 -/
def newAlarm (d : List UInt8) : GoRet Alarm :=
  match d with
  | t :: l :: src :: status :: sensorType :: event :: _ =>
    .ok { type := t, level := l, sensorSourceID := src, sensorType := sensorType,
          event := event, status := status }
  | t :: l :: _ =>
    .ok { type := t, level := l, sensorSourceID := 0, sensorType := 0, event := 0, status := 0 }
  | _ => .error .length

/-- One hexadecimal digit of Go's `%x`. -/
def hexDigit (n : Nat) : Char := "0123456789abcdef".toList.getD n '?'

/-- `fmt.Sprintf("%04x", v)` for a `uint16` given by its big-endian bytes
(manufacturer_specific.go 32, 36-38). -/
def hex4 (hi lo : UInt8) : List Char :=
  let v := hi.toNat * 256 + lo.toNat
  [hexDigit (v / 4096 % 16), hexDigit (v / 256 % 16), hexDigit (v / 16 % 16), hexDigit (v % 16)]

/-- `NewManufacturerSpecific`, commands/reports/manufacturer_specific.go 18-41.  `binary.Read` of
three `uint16` from six bytes cannot fail. -/
def newManufacturerSpecific (d : List UInt8) : GoRet ManufacturerSpecific :=
  match d with
  | [a, b, c, e, f, g] => .ok { manufacturer := hex4 a b, type := hex4 c e, id := hex4 f g }
  | _ => .error .length

/-- `NewMultiChannelEndpoints`, commands/reports/multi_instance_endpoint.go 16-45 -/
def newMultiChannelEndpoints (d : List UInt8) : GoRet MultiChannelEndpoints :=
  match d with
  | bits :: n :: _ =>
    .ok { dynamic := bits &&& 0x80 != 0, identical := bits &&& 0x40 != 0, endpoints := n.toNat }
  | _ => .error .length

/-- `NewSwitchBinaryV1`, commands/reports/switch_binary.go 23-33 -/
def newSwitchBinaryV1 (d : List UInt8) : GoRet Report :=
  match d with
  | [b] => .ok (.switchBinaryV1 (b == 0xFF && b != 0xFE) (b != 0xFE))
  | _ => .error .length

/-- `NewSwitchBinaryV2`, commands/reports/switch_binary.go 54-65 -/
def newSwitchBinaryV2 (d : List UInt8) : GoRet Report :=
  match d with
  | [a, b, c] => .ok (.switchBinaryV2 (a != 0x00) (b != 0x00) c)
  | _ => .error .length

/-- `NewSwitchMultilevelV1`, commands/reports/switch_multilevel.go 22-32 -/
def newSwitchMultilevelV1 (d : List UInt8) : GoRet Report :=
  match d with
  | [b] => .ok (.switchMultilevelV1 (min b.toNat 100) (b != 0xFE))
  | _ => .error .length

/-- `NewSwitchMultilevelV4`, commands/reports/switch_multilevel.go 56-69 -/
def newSwitchMultilevelV4 (d : List UInt8) : GoRet Report :=
  match d with
  | [a, b, c] =>
    .ok (.switchMultilevelV4 (min a.toNat 100) (min b.toNat 100) c (a != 0xFE) (b != 0xFE))
  | _ => .error .length

/-- Sensor type names, the outer switch of sensor_multi_level.go 102-336; the constants are the
`iota` list 14-47 (Temperature = 1 … Moisture = 31). -/
def sensorTypeName : Nat → Option String
  | 1 => some "Temperature"
  | 2 => some "General"
  | 3 => some "Luminance"
  | 4 => some "Power"
  | 5 => some "RelativeHumidity"
  | 6 => some "Velocity"
  | 7 => some "Direction"
  | 8 => some "AtmosphericPressure"
  | 9 => some "BarometricPressure"
  | 10 => some "SolarRadiation"
  | 11 => some "DewPoint"
  | 12 => some "RainRate"
  | 13 => some "TideLevel"
  | 14 => some "Weight"
  | 15 => some "Voltage"
  | 16 => some "Current"
  | 17 => some "CO2"
  | 18 => some "AirFlow"
  | 19 => some "TankCapacity"
  | 20 => some "Distance"
  | 21 => some "AnglePosition"
  | 22 => some "Rotation"
  | 23 => some "WaterTemperature"
  | 24 => some "SoilTemperature"
  | 25 => some "SeismicIntensity"
  | 26 => some "SeismicMagnitude"
  | 27 => some "Ultraviolet"
  | 28 => some "ElectricalResistivity"
  | 29 => some "ElectricalConductivity"
  | 30 => some "Loudness"
  | 31 => some "Moisture"
  | _ => none

/-- Decimal digits of `strconv.Itoa` for a natural number. -/
def itoa (n : Nat) : List Char := Nat.toDigits 10 n

/-- `TypeString`, sensor_multi_level.go 102-336 including the default branch 334-335 -/
def sensorTypeString (t : UInt8) : List Char :=
  match sensorTypeName t.toNat with
  | some s => s.toList
  | none => "Unknown (".toList ++ itoa t.toNat ++ ")".toList

/-- `Unit`, the inner switches of sensor_multi_level.go 102-336 (no matching case leaves "") -/
def sensorUnit (t scale : Nat) : String :=
  match t, scale with
  | 1, 0 => "C" | 1, 1 => "F"
  | 2, 0 => "%"
  | 3, 0 => "%" | 3, 1 => "lux"
  | 4, 0 => "W" | 4, 1 => "BTU/h"
  | 5, 0 => "%"
  | 6, 0 => "m/s" | 6, 1 => "mph"
  | 8, 0 => "kPa" | 8, 1 => "inHg"
  | 9, 0 => "kPa" | 9, 1 => "inHg"
  | 10, _ => "W/m2"
  | 11, 0 => "C" | 11, 1 => "F"
  | 12, 0 => "mm/h" | 12, 1 => "in/h"
  | 13, 0 => "m" | 13, 1 => "ft"
  | 14, 0 => "kg" | 14, 1 => "lb"
  | 15, 0 => "V" | 15, 1 => "mV"
  | 16, 0 => "A" | 16, 1 => "mA"
  | 17, _ => "ppm"
  | 18, 0 => "m3/h" | 18, 1 => "cfm"
  | 19, 0 => "l" | 19, 1 => "cbm" | 19, 2 => "gal"
  | 20, 0 => "m" | 20, 1 => "cm" | 20, 2 => "ft"
  | 21, 0 => "%" | 21, 1 => "deg N" | 21, 2 => "deg S"
  | 22, 0 => "rpm" | 22, 1 => "hz"
  | 23, 0 => "C" | 23, 1 => "F"
  | 24, 0 => "C" | 24, 1 => "F"
  | 25, 0 => "mercalli" | 25, 1 => "EU macroseismic" | 25, 2 => "liedu" | 25, 3 => "shindo"
  | 26, 0 => "local" | 26, 1 => "moment" | 26, 2 => "surface wave" | 26, 3 => "body wave"
  | 28, _ => "ohm"
  | 29, _ => "siemens/m"
  | 30, 0 => "db" | 30, 1 => "dBA"
  | 31, 0 => "%" | 31, 1 => "content" | 31, 2 => "k ohm" | 31, 3 => "water activity"
  | _, _ => ""

/-- Two's complement reading of a `bits`-bit unsigned value (Go's `int8`/`int16`/`int32` as filled by
`binary.Read`). -/
def signed (bits : Nat) (v : Nat) : Int := if v < 2 ^ (bits - 1) then v else (v : Int) - 2 ^ bits

/-- The integer read by the size switch, sensor_multi_level.go 83-96; other sizes leave 0. -/
def sensorRaw (size : Nat) (d : List UInt8) : Int :=
  match size, d with
  | 1, a :: _ => signed 8 a.toNat
  | 2, a :: b :: _ => signed 16 (a.toNat * 256 + b.toNat)
  | 4, a :: b :: c :: e :: _ =>
    signed 32 (((a.toNat * 256 + b.toNat) * 256 + c.toNat) * 256 + e.toNat)
  | _, _ => 0

/-- `NewSensorMultiLevel`, commands/reports/sensor_multi_level.go 64-339.  `binary.Read` cannot fail
after the length check 76-78.  Division is exact. -/
def newSensorMultiLevel (d : List UInt8) : GoRet SensorMultiLevel :=
  match d with
  | t :: c :: rest =>
    let size := c &&& 0x07
    let scale := (c &&& 0x18) >>> 3
    let prec := (c &&& 0xE0) >>> 5
    if rest.length < size.toNat then .error .length
    else
      let raw : Rat := (sensorRaw size.toNat rest : Int)
      .ok { valueType := t, size := size, scale := scale, precision := prec,
            value := if prec > 0 then raw / (10 ^ prec.toNat : Nat) else raw,
            typeString := sensorTypeString t,
            unit := (sensorUnit t.toNat scale.toNat).toList }
  | _ => .error .length

/-- `New`, commands/reports/report.go 28-77 -/
def newReport (c class_ : UInt8) (d : List UInt8) : GoRet Report :=
  if c = ccAlarm then
    if class_ = 0x05 then (newAlarm d).map .alarm else .error .unknown
  else if c = ccManufacturerSpecific then
    if class_ = 0x05 then (newManufacturerSpecific d).map .manufacturerSpecific
    else .error .unknown
  else if c = ccMultiInstance then
    if class_ = 0x08 then (newMultiChannelEndpoints d).map .multiChannelEndpoints
    else .error .unknown
  else if c = ccSensorMultiLevel then
    if class_ = 0x05 then (newSensorMultiLevel d).map .sensorMultiLevel else .error .unknown
  else if c = ccSwitchBinary then
    if class_ = 0x03 then
      if d.length = 1 then newSwitchBinaryV1 d
      else if d.length = 3 then newSwitchBinaryV2 d
      else .error .unknown
    else .error .unknown
  else if c = ccSwitchMultilevel then
    if class_ = 0x03 then
      if d.length = 1 then newSwitchMultilevelV1 d
      else if d.length = 3 then newSwitchMultilevelV4 d
      else .error .unknown
    else .error .unknown
  else if c = ccWakeUp then .ok .wakeUp
  else .error .unknown

end Verif.Model
