import Verif.Model.Reports

/-
The `String()` methods of the reports (commands/reports/*.go) and of `Duration` (commands/duration.go 24-32), with the
verbs of `fmt.Sprintf` they use.

A report does not keep everything its text depends on in exported fields: `Alarm.String` asks for the length of the
payload (alarm.go 44), which is passed here. A sensor report holds a float64, passed as the rational it is (see C94 for
which one it is). `switchMultilevel` values are whole numbers up to 100, which float64 holds exactly.
-/

namespace Verif.Model

open Verif.Go

/-- `%x` of a byte: no leading zero. -/
def fmtX (b : UInt8) : List Char :=
  if b.toNat < 16 then [hexDigit b.toNat] else [hexDigit (b.toNat / 16), hexDigit (b.toNat % 16)]

/-- `%t` -/
def fmtT (b : Bool) : List Char := if b then "true".toList else "false".toList

/-- A non-negative number in millionths, rounded to nearest, ties to even: what `%f` keeps of a value. -/
def micro (a : Rat) : Nat :=
  let z := a * 1000000
  let f := z.floor.toNat
  let r := (z - (f : Rat)) * 2
  if r < 1 then f else if 1 < r then f + 1 else if f % 2 = 0 then f else f + 1

/-- Exactly six digits. -/
def six (n : Nat) : List Char :=
  [n / 100000 % 10, n / 10000 % 10, n / 1000 % 10, n / 100 % 10, n / 10 % 10, n % 10].map Nat.digitChar

/-- `%f` of a finite float64: six decimals, the exact value correctly rounded, the sign kept. -/
def fmtF (x : Rat) : List Char :=
  let m := micro (if x < 0 then -x else x)
  (if x < 0 then ['-'] else []) ++ itoa (m / 1000000) ++ '.' :: six (m % 1000000)

/-- `time.Duration.String` for whole seconds. -/
def fmtDuration (s : Nat) : List Char :=
  if s < 60 then itoa s ++ ['s']
  else if s < 3600 then itoa (s / 60) ++ 'm' :: itoa (s % 60) ++ ['s']
  else itoa (s / 3600) ++ 'h' :: itoa (s / 60 % 60) ++ 'm' :: itoa (s % 60) ++ ['s']

/-- `Duration.String`, commands/duration.go 24-32 -/
def durationString (d : UInt8) : List Char :=
  match duration d with
  | .ok s => fmtDuration s
  | .error _ => "Factory default duration".toList

/-- `Alarm.String`, alarm.go 43-50; `n` is `len(a.data)`. -/
def alarmString (n : Nat) (a : Alarm) : List Char :=
  if n ≥ 6 then
    "alarm type:".toList ++ fmtX a.type ++ " level:".toList ++ fmtX a.level ++ " sensorSrcID:".toList ++
      fmtX a.sensorSourceID ++ " status:".toList ++ fmtX a.status ++ " sensorType:".toList ++ fmtX a.sensorType ++
      " event:".toList ++ fmtX a.event
  else "alarm type:".toList ++ fmtX a.type ++ " level:".toList ++ fmtX a.level

/-- `ManufacturerSpecific.String`, manufacturer_specific.go 43-45 -/
def manufacturerString (m : ManufacturerSpecific) : List Char :=
  "manufacturerSpecific manufacturer:".toList ++ m.manufacturer ++ " type:".toList ++ m.type ++ " id:".toList ++ m.id ++
    " (".toList ++ m.manufacturer ++ ":".toList ++ m.type ++ ":".toList ++ m.id ++ ")".toList

/-- `MultiChannelEndpoints.String`, multi_instance_endpoint.go 47-49 -/
def endpointsString (m : MultiChannelEndpoints) : List Char :=
  "multiChannelEndpoints dynamic:".toList ++ fmtT m.dynamic ++ " identical:".toList ++ fmtT m.identical ++
    " endpoints:".toList ++ itoa m.endpoints

/-- `SensorMultiLevel.String`, sensor_multi_level.go 341-343; `x` is the float64 in `sml.Value`. -/
def sensorString (x : Rat) (s : SensorMultiLevel) : List Char :=
  fmtF x ++ " ".toList ++ s.typeString ++ " ".toList ++ s.unit

/-- The `String()` method of a report that was decoded from a payload of `n` bytes; `x` is the float64 in a sensor
report. switch_binary.go 35-37 and 67-69, switch_multilevel.go 34-39 and 71-81, wakeup.go 15-17. -/
def reportString (n : Nat) (x : Rat) : Report → List Char
  | .alarm a => alarmString n a
  | .manufacturerSpecific m => manufacturerString m
  | .multiChannelEndpoints m => endpointsString m
  | .sensorMultiLevel s => sensorString x s
  | .switchBinaryV1 c _ => "current:".toList ++ fmtT c
  | .switchBinaryV2 c t d =>
    "current:".toList ++ fmtT c ++ " target:".toList ++ fmtT t ++ " duration:".toList ++ durationString d
  | .switchMultilevelV1 c v => if v then "current:".toList ++ fmtF c else "current:unknown".toList
  | .switchMultilevelV4 c t d v tv =>
    let ret := if v then "current:".toList ++ fmtF c ++ " ".toList else "current:unknown ".toList
    if tv then ret ++ "target:".toList ++ fmtF t ++ " duration:".toList ++ durationString d
    else ret ++ "target:unknown duration:".toList ++ durationString d
  | .wakeUp => "wakeup".toList

end Verif.Model
