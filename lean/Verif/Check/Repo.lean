import Verif.Model.Print
import Verif.Model.Commands
import Verif.Model.Database
import Verif.Model.Match
import Verif.Model.Tools
import Verif.Props.ProcessFair

/-
The unit tests of the repository, run on the model. They say nothing about all inputs and prove none of the properties:
they check the model itself. Where a test of the repository pins what the code does, the model has to do the same.

Left out: `TestWriteToLog` (gob and the clock), `TestConnectWithCustomPortOpener` (texts of errors; what it returns is C65),
serialrecorder/direction_test.go (a direction is a Bool in the model), and generators/database/database_test.go, which
refers to types the generator no longer has (`deviceDescription`, `IDasHex`, `lang`) and does not compile at this commit.
-/

namespace Verif.Check

open Verif.Go Verif.Model

/-- The error of a decoder is not nil. -/
def fails {α : Type} : GoRet α → Bool
  | .error _ => true
  | .ok _ => false

/-- A byte slice written as a literal: no room behind it. -/
def lit (d : List UInt8) : Slice := ⟨d, []⟩

/-! ### serialapi/message_test.go -/

/-- `TestNewMessage`: no error. -/
example : [
    [0x01, 0x11, 0x00, 0x04, 0x00, 0x02, 0x0b, 0x71, 0x05, 0x07, 0x00, 0x00, 0xff, 0x07, 0x00, 0x01, 0x08, 0x00, 0x00],
    [0x01, 0x11, 0x00, 0x04, 0x00, 0x02, 0x0b, 0x71, 0x05, 0x07, 0xff, 0x00, 0xff, 0x07, 0x08, 0x01, 0x08, 0x00, 0x00],
    [0x01, 0x0c, 0x00, 0x04, 0x00, 0x03, 0x06, 0x31, 0x05, 0x03, 0x0a, 0x00, 0xc2, 0x00],
    [0x01, 0x0c, 0x00, 0x04, 0x00, 0x03, 0x06, 0x31, 0x05, 0x03, 0x0a, 0x00, 0x1d, 0x00],
    [0x01, 0x08, 0x00, 0x04, 0x04, 0x03, 0x02, 0x84, 0x07, 0x00],
    [0x01, 0x10, 0x00, 0x02, 0x00, 0x00, 0x06, 0x01, 0x02, 0x03, 0x00, 0x00, 0x00],
    [0x01, 0x10, 0x00, 0x41, 0x00, 0x00, 0x00, 0x00, 0x00, 0x00]].all (fun d =>
    match newMessage (lit d) with
    | .ok (.ok _) => true
    | _ => false) = true := by decide +kernel

/-- `TestDecode`: a message, a length other than -1, no error. -/
example : [
    [0x06], [0x15], [0x18],
    [0x01, 0x11, 0x00, 0x04, 0x00, 0x02, 0x0b, 0x71, 0x05, 0x07, 0x00, 0x00, 0xff, 0x07, 0x00, 0x01, 0x08, 0x00, 0x61],
    [0x01, 0x11, 0x00, 0x04, 0x00, 0x02, 0x0b, 0x71, 0x05, 0x07, 0xff, 0x00, 0xff, 0x07, 0x08, 0x01, 0x08, 0x00, 0x96],
    [0x01, 0x0c, 0x00, 0x04, 0x00, 0x03, 0x06, 0x31, 0x05, 0x03, 0x0a, 0x00, 0xc2, 0x0d],
    [0x01, 0x0c, 0x00, 0x04, 0x00, 0x03, 0x06, 0x31, 0x05, 0x03, 0x0a, 0x00, 0x1d, 0xd2],
    [0x01, 0x08, 0x00, 0x04, 0x04, 0x03, 0x02, 0x84, 0x07, 0x75]].all (fun d =>
    match decode (lit d) with
    | .ok (o, _) => o.msg.isSome && o.length != -1 && o.err.isNone
    | _ => false) = true := by decide +kernel

/-- `TestDecode`, the cases at its end: the length, whether there is a message, whether there is an error. -/
def decoded (d : List UInt8) : Option (Int × Bool × Bool) :=
  match decode (lit d) with
  | .ok (o, _) => some (o.length, o.msg.isSome, o.err.isSome)
  | _ => none

example : decoded [0x01] = some (2, false, false) := by decide +kernel
example : decoded [0x01, 0x02] = some (4, false, false) := by decide +kernel
example : decoded [0x01, 0x02, 0x00, 0x00] = some (-1, false, true) := by decide +kernel
example : decoded [0x01, 0x02, 0x00, 0xfd] = some (4, false, true) := by decide +kernel
example : decoded [0x99] = some (-1, false, false) := by decide +kernel

/-- `TestMessageIs` -/
example : [0x00, 0x06, 0x15, 0x18].map (fun b : UInt8 =>
    let m : Message := { length := 0, messageType := 0, function := 0, nodeID := 0, startByte := b, data := .nil }
    (m.isACK, m.isNAK, m.isCAN)) =
    [(false, false, false), (true, false, false), (false, true, false), (false, false, true)] := by decide

/-- `TestCompileMessage` -/
example : compileMessage [0x01, 0x02] = .ok [0x1, 0x4, 0x0, 0x1, 0x2, 0xf8] := by decide

/-! ### The other tests of serialapi -/

/-- `TestNewGetNodeProtocolInfo`, get_node_protocolinfo_test.go -/
example : newProtocolInfo [0x01, 0x00, 0xff, 0x04, 0x05, 0x06] = .ok
    { listening := false, routing := false, beaming := false, version := 0x02, flirs := false, security := false,
      maxBaud := 9600, basic := 0x04, generic := 0x05, specific := 0x06 } := by decide
/-- What the test looks at: listening, routing, beaming, flirs, security, the rate. -/
def infoBits (d : List UInt8) : Option (Bool × Bool × Bool × Bool × Bool × Nat) :=
  match newProtocolInfo d with
  | .ok m => some (m.listening, m.routing, m.beaming, m.flirs, m.security, m.maxBaud)
  | .error _ => none
example : infoBits [0x80, 0x01, 0xff, 0xff, 0xff, 0xff] = some (true, false, false, false, true, 9600) := by decide
example : infoBits [0x40, 0x10, 0xff, 0xff, 0xff, 0xff] = some (false, true, true, false, false, 9600) := by decide
example : infoBits [0x10, 0x60, 0xff, 0xff, 0xff, 0xff] = some (false, false, false, true, false, 40000) := by decide
example : infoBits [0x01, 0x02, 0x03, 0x04, 0x05] = none := by decide

/-- `TestRaw`, raw_test.go -/
example : serialRawEncode [0x01, 0x02, 0x03, 0x04] = [0x01, 0x02, 0x03, 0x04] := rfl

/-- `TestNewApplicationCommandHandler`, application_command_handler_test.go -/
example : (newACH (lit [0x00, 0x00, 0x00])).map fails = .ok true := by decide
example : (newACH (lit [ccWakeUp, 0x00, 0x00])).map fails = .ok false := by decide

/-- `TestNewDiscoverdNodes`, discovery_nodes_test.go: the indices that are true in the literal of the test. -/
example : newDiscoverdNodes [0x01, 0x02, 0x03, 0x04, 0x05, 0x06] =
    .ok (.ok ((List.range 232).map fun i => decide (i ∈ [0, 9, 16, 17, 26, 32, 34, 41, 42]))) := by decide +kernel
example : (newDiscoverdNodes [0x01, 0x02, 0x03, 0x04, 0x05]).map fails = .ok true := by decide

/-- `TestTypes`, types_test.go -/
example : ([
  (0x00, "None"), (0x02, "DiscoveryNodes"), (0x03, "SerialApiApplNodeInformation"),
  (0x04, "ApplicationCommandHandler"), (0x05, "GetControllerCapabilities"), (0x06, "SerialApiSetTimeouts"),
  (0x07, "SerialGetCapabilities"), (0x08, "SerialApiSoftReset"), (0x10, "SetRFReceiveMode"), (0x11, "SetSleepMode"),
  (0x12, "SendNodeInformation"), (0x13, "SendData"), (0x14, "SendDataMulti"), (0x15, "GetVersion"),
  (0x16, "SendDataAbort"), (0x17, "RFPowerLevelSet"), (0x18, "SendDataMeta"), (0x20, "MemoryGetId"),
  (0x21, "MemoryGetByte"), (0x22, "MemoryPutByte"), (0x23, "MemoryGetBuffer"), (0x24, "MemoryPutBuffer"),
  (0x25, "ReadMemory"), (0x30, "ClockSet"), (0x31, "ClockGet"), (0x32, "ClockCompare"), (0x33, "RtcTimerCreate"),
  (0x34, "RtcTimerRead"), (0x35, "RtcTimerDelete"), (0x36, "RtcTimerCall"), (0x41, "GetNodeProtocolInfo"),
  (0x42, "SetDefault"), (0x44, "ReplicationCommandComplete"), (0x45, "ReplicationSendData"),
  (0x46, "AssignReturnRoute"), (0x47, "DeleteReturnRoute"), (0x48, "RequestNodeNeighborUpdate"),
  (0x49, "ApplicationUpdate"), (0x4a, "AddNodeToNetwork"), (0x4b, "RemoveNodeFromNetwork"),
  (0x4c, "CreateNewPrimary"), (0x4d, "ControllerChange"), (0x50, "SetLearnMode"), (0x51, "AssignSucReturnRoute"),
  (0x52, "EnableSuc"), (0x53, "RequestNetworkUpdate"), (0x54, "SetSucNodeId"), (0x55, "DeleteSucReturnRoute"),
  (0x56, "GetSucNodeId"), (0x57, "SendSucId"), (0x59, "RediscoveryNeeded"), (0x60, "RequestNodeInfo"),
  (0x61, "RemoveFailedNodeId"), (0x62, "IsFailedNode"), (0x63, "ReplaceFailedNode"), (0x70, "TimerStart"),
  (0x71, "TimerRestart"), (0x72, "TimerCancel"), (0x73, "TimerCall"), (0x80, "GetRoutingTableLine"),
  (0x81, "GetTXCounter"), (0x82, "ResetTXCounter"), (0x83, "StoreNodeInfo"), (0x84, "StoreHomeId"),
  (0x90, "LockRouteResponse"), (0x91, "SendDataRouteDemo"), (0x95, "SerialApiTest"),
  (0xa0, "SerialApiSlaveNodeInfo"), (0xa1, "ApplicationSlaveCommandHandler"), (0xa2, "SendSlaveNodeInfo"),
  (0xa3, "SendSlaveData"), (0xa4, "SetSlaveLearnMode"), (0xa5, "GetVirtualNodes"), (0xa6, "IsVirtualNode"),
  (0xd0, "SetPromiscuousMode")] : List (UInt8 × String)).all (fun x => functionName x.1 == x.2.toList) = true := by decide +kernel

/-! ### The tests of commands -/

/-- switchMultilevel_test.go -/
example : [0, 1, 99, 100, 255].map (fun v : Nat => switchMultilevelEncode (fun _ => 0) 99 (.fin v)) = [
    [0x13, 0x63, 0x03, 0x26, 0x01, 0x00, 0x25],
    [0x13, 0x63, 0x03, 0x26, 0x01, 0x01, 0x25],
    [0x13, 0x63, 0x03, 0x26, 0x01, 0x63, 0x25],
    [0x13, 0x63, 0x03, 0x26, 0x01, 0x63, 0x25],
    [0x13, 0x63, 0x03, 0x26, 0x01, 0x63, 0x25]] := by decide +kernel

/-- duration_test.go: seconds and text; `time.Duration.String` of the same durations is `0s`, `1s`, `2m7s`, `1m0s`,
`2h6m0s`. -/
example : [0x00, 0x01, 0x7F, 0x80, 0xFD].map duration = [.ok 0, .ok 1, .ok 127, .ok 60, .ok (126 * 60)] := by decide
example : [0x00, 0x01, 0x7F, 0x80, 0xFD].map durationString =
    ["0s", "1s", "2m7s", "1m0s", "2h6m0s"].map String.toList := by decide +kernel
example : fails (duration 0xFE) = true ∧ durationString 0xFE = "Factory default duration".toList := by decide +kernel

/-- switchBinary_test.go -/
example : switchBinaryEncode 99 true = [0x13, 0x63, 0x03, 0x25, 0x01, 0xff, 0x25] := by decide
example : switchBinaryEncode 99 false = [0x13, 0x63, 0x03, 0x25, 0x01, 0x00, 0x25] := by decide

/-- multiChannelEncap_test.go -/
example : encapEncode [0x01, 0x02, 0x03, 0x04] 99 = .ok [0x01, 0x02, 0x07, 0x60, 0x0d, 0x01, 0x63, 0x04] := by decide

/-- raw_test.go -/
example : rawEncode 0x05 [0x01, 0x02, 0x03, 0x04] = [0x13, 0x05, 0x05, 0x01, 0x02, 0x03, 0x04] := by decide

/-! ### The tests of commands/reports -/

/-- A report as a test sees it: decoded, with its text. -/
def shows (x : Rat) (d : List UInt8) (r : GoRet Report) (want : Report) (text : String) : Bool :=
  match r with
  | .ok r => r == want && reportString d.length x r == text.toList
  | .error _ => false

/-- alarm_test.go -/
example : fails (newAlarm []) = true := by decide
example : shows 0 [1, 2] ((newAlarm [1, 2]).map .alarm) (.alarm ⟨1, 2, 0, 0, 0, 0⟩) "alarm type:1 level:2" = true := by
  decide +kernel
example : shows 0 [1, 2, 3, 4, 5, 6] ((newAlarm [1, 2, 3, 4, 5, 6]).map .alarm) (.alarm ⟨1, 2, 3, 5, 6, 4⟩)
    "alarm type:1 level:2 sensorSrcID:3 status:4 sensorType:5 event:6" = true := by decide +kernel

/-- manufacturer_specific_test.go -/
example : fails (newManufacturerSpecific []) = true := by decide
example : shows 0 [1, 2, 3, 4, 5, 6] ((newManufacturerSpecific [1, 2, 3, 4, 5, 6]).map .manufacturerSpecific)
    (.manufacturerSpecific ⟨"0102".toList, "0304".toList, "0506".toList⟩)
    "manufacturerSpecific manufacturer:0102 type:0304 id:0506 (0102:0304:0506)" = true := by decide +kernel

/-- multi_instance_endpoint_test.go -/
example : fails (newMultiChannelEndpoints []) = true := by decide
example : shows 0 [0x40, 3] ((newMultiChannelEndpoints [0x40, 0x03]).map .multiChannelEndpoints)
    (.multiChannelEndpoints ⟨false, true, 3⟩) "multiChannelEndpoints dynamic:false identical:true endpoints:3" = true := by
  decide +kernel

/-- Which type of report it is, for `assert.IsType`. -/
def typeOf : GoRet Report → String
  | .error _ => "error"
  | .ok (.alarm _) => "Alarm"
  | .ok (.manufacturerSpecific _) => "ManufacturerSpecific"
  | .ok (.multiChannelEndpoints _) => "MultiChannelEndpoints"
  | .ok (.sensorMultiLevel _) => "SensorMultiLevel"
  | .ok (.switchBinaryV1 ..) => "SwitchBinaryV1"
  | .ok (.switchBinaryV2 ..) => "SwitchBinaryV2"
  | .ok (.switchMultilevelV1 ..) => "SwitchMultilevelV1"
  | .ok (.switchMultilevelV4 ..) => "SwitchMultilevelV4"
  | .ok .wakeUp => "WakeUp"

/-- `TestNew`, `TestNewNoData` and `TestReport`, report_test.go -/
example : ([
    (ccAlarm, 0x05, [0, 0], "Alarm"),
    (ccManufacturerSpecific, 0x05, [0, 0, 0, 0, 0, 0], "ManufacturerSpecific"),
    (ccMultiInstance, 0x08, [0, 0, 0, 0, 0, 0], "MultiChannelEndpoints"),
    (ccSensorMultiLevel, 0x05, [0, 0], "SensorMultiLevel"),
    (ccSwitchBinary, 0x03, [0], "SwitchBinaryV1"),
    (ccSwitchBinary, 0x03, [0, 0, 0], "SwitchBinaryV2"),
    (ccSwitchMultilevel, 0x03, [0], "SwitchMultilevelV1"),
    (ccSwitchMultilevel, 0x03, [0, 0, 0], "SwitchMultilevelV4"),
    (ccWakeUp, 0x00, [], "WakeUp"),
    (0x00, 0x00, [], "error")] : List (UInt8 × UInt8 × List UInt8 × String)).all (fun (c, k, d, t) =>
    typeOf (newReport c k d) == t) = true := by decide +kernel

/-- sensor_multi_level_test.go -/
example : [[], [0x01, 0x01], [0x01, 0x21, 0x01], [0x01, 0x22, 0x00, 0x01], [0x01, 0x24, 0x00, 0x00, 0x00, 0x01]].map
    (fun d => fails (newSensorMultiLevel d)) = [true, true, false, false, false] := by decide +kernel

/-- `TestSensorMultiLevelTypes`, sensor_multi_level_test.go: type, scale, type and unit in the text. -/
example : ([
  (0x01, 0x00, "Temperature C"), (0x01, 0x01, "Temperature F"), (0x02, 0x00, "General %"),
  (0x03, 0x00, "Luminance %"), (0x03, 0x01, "Luminance lux"), (0x04, 0x00, "Power W"), (0x04, 0x01, "Power BTU/h"),
  (0x05, 0x00, "RelativeHumidity %"), (0x06, 0x00, "Velocity m/s"), (0x06, 0x01, "Velocity mph"),
  (0x07, 0x00, "Direction "), (0x08, 0x00, "AtmosphericPressure kPa"), (0x08, 0x01, "AtmosphericPressure inHg"),
  (0x09, 0x00, "BarometricPressure kPa"), (0x09, 0x01, "BarometricPressure inHg"),
  (0x0A, 0x00, "SolarRadiation W/m2"), (0x0B, 0x00, "DewPoint C"), (0x0B, 0x01, "DewPoint F"),
  (0x0C, 0x00, "RainRate mm/h"), (0x0C, 0x01, "RainRate in/h"), (0x0D, 0x00, "TideLevel m"),
  (0x0D, 0x01, "TideLevel ft"), (0x0E, 0x00, "Weight kg"), (0x0E, 0x01, "Weight lb"), (0x0F, 0x00, "Voltage V"),
  (0x0F, 0x01, "Voltage mV"), (0x10, 0x00, "Current A"), (0x10, 0x01, "Current mA"), (0x11, 0x00, "CO2 ppm"),
  (0x12, 0x00, "AirFlow m3/h"), (0x12, 0x01, "AirFlow cfm"), (0x13, 0x00, "TankCapacity l"),
  (0x13, 0x01, "TankCapacity cbm"), (0x13, 0x02, "TankCapacity gal"), (0x14, 0x00, "Distance m"),
  (0x14, 0x01, "Distance cm"), (0x14, 0x02, "Distance ft"), (0x15, 0x00, "AnglePosition %"),
  (0x15, 0x01, "AnglePosition deg N"), (0x15, 0x02, "AnglePosition deg S"), (0x16, 0x00, "Rotation rpm"),
  (0x16, 0x01, "Rotation hz"), (0x17, 0x00, "WaterTemperature C"), (0x17, 0x01, "WaterTemperature F"),
  (0x18, 0x00, "SoilTemperature C"), (0x18, 0x01, "SoilTemperature F"), (0x19, 0x00, "SeismicIntensity mercalli"),
  (0x19, 0x01, "SeismicIntensity EU macroseismic"), (0x19, 0x02, "SeismicIntensity liedu"),
  (0x19, 0x03, "SeismicIntensity shindo"), (0x1A, 0x00, "SeismicMagnitude local"),
  (0x1A, 0x01, "SeismicMagnitude moment"), (0x1A, 0x02, "SeismicMagnitude surface wave"),
  (0x1A, 0x03, "SeismicMagnitude body wave"), (0x1B, 0x00, "Ultraviolet "),
  (0x1C, 0x00, "ElectricalResistivity ohm"), (0x1D, 0x00, "ElectricalConductivity siemens/m"),
  (0x1E, 0x00, "Loudness db"), (0x1E, 0x01, "Loudness dBA"), (0x1F, 0x00, "Moisture %"),
  (0x1F, 0x01, "Moisture content"), (0x1F, 0x02, "Moisture k ohm"), (0x1F, 0x03, "Moisture water activity"),
  (0x20, 0x00, "Unknown (32) ")] : List (UInt8 × UInt8 × String)).all (fun (ty, scale, text) =>
    match newSensorMultiLevel [ty, (0x04 : UInt8) + (scale <<< 0x03), 0x00, 0x00, 0x00, 0x01] with
    | .ok w => w.value == 1 && sensorString w.value w == "1.000000 ".toList ++ text.toList
    | .error _ => false) = true := by decide +kernel

/-- switch_binary_test.go -/
example : fails (newSwitchBinaryV1 []) = true ∧ fails (newSwitchBinaryV2 []) = true := by decide
example : shows 0 [0x00] (newSwitchBinaryV1 [0x00]) (.switchBinaryV1 false true) "current:false" = true := by decide +kernel
example : shows 0 [0xFF] (newSwitchBinaryV1 [0xFF]) (.switchBinaryV1 true true) "current:true" = true := by decide +kernel
example : shows 0 [0x00, 0xFF, 0x00] (newSwitchBinaryV2 [0x00, 0xFF, 0x00]) (.switchBinaryV2 false true 0)
    "current:false target:true duration:0s" = true ∧ duration 0 = .ok 0 := by decide +kernel
example : shows 0 [0xFF, 0x00, 0x01] (newSwitchBinaryV2 [0xFF, 0x00, 0x01]) (.switchBinaryV2 true false 1)
    "current:true target:false duration:1s" = true ∧ duration 1 = .ok 1 := by decide +kernel

/-- switch_multilevel_test.go -/
example : fails (newSwitchMultilevelV1 []) = true ∧ fails (newSwitchMultilevelV4 []) = true := by decide
example : shows 0 [0x00] (newSwitchMultilevelV1 [0x00]) (.switchMultilevelV1 0 true) "current:0.000000" = true := by
  decide +kernel
example : shows 0 [100] (newSwitchMultilevelV1 [100]) (.switchMultilevelV1 100 true) "current:100.000000" = true := by
  decide +kernel
example : shows 0 [0xFE] (newSwitchMultilevelV1 [0xFE]) (.switchMultilevelV1 100 false) "current:unknown" = true := by
  decide +kernel
example : shows 0 [0x00, 0xFF, 0x00] (newSwitchMultilevelV4 [0x00, 0xFF, 0x00]) (.switchMultilevelV4 0 100 0 true true)
    "current:0.000000 target:100.000000 duration:0s" = true := by decide +kernel
example : shows 0 [0xFF, 0x00, 0x01] (newSwitchMultilevelV4 [0xFF, 0x00, 0x01]) (.switchMultilevelV4 100 0 1 true true)
    "current:100.000000 target:0.000000 duration:1s" = true := by decide +kernel
example : shows 0 [0xFE, 0x00, 0x01] (newSwitchMultilevelV4 [0xFE, 0x00, 0x01]) (.switchMultilevelV4 100 0 1 false true)
    "current:unknown target:0.000000 duration:1s" = true := by decide +kernel
example : shows 0 [0x00, 0xFE, 0x01] (newSwitchMultilevelV4 [0x00, 0xFE, 0x01]) (.switchMultilevelV4 0 100 1 true false)
    "current:0.000000 target:unknown duration:1s" = true := by decide +kernel

/-- wakeup_test.go -/
example : reportString 0 0 .wakeUp = "wakeup".toList := rfl

/-! ### connection_test.go -/

/-- `TestSendPackageMatch`: the fields of the package. -/
example : (newSendPackage [fnSendData, 0x02, 0x03, 0x04, 0x05] 0).map (fun s =>
    (s.function, s.node, s.commandclass, s.expectedReport)) = .ok (fnSendData, 0x02, 0x04, 0x00) := by decide +kernel

def matches_ (er : UInt8) (d : List UInt8) : Res Bool := do
  let s ← newSendPackage [fnSendData, 0x02, 0x03, 0x04, 0x05] er
  s.match_ d

/-- `TestSendPackageMatch`: what matches. -/
example : matches_ 0 [0, 0, 0, 0xff, 0, 0x02, 0x04, 0x05, 0x06, 0] = .ok false := by decide +kernel
example : matches_ 0 [0, 0, 0, fnApplicationCommandHandler, 0, 0xff, 0, 0x04, 0x06, 0] = .ok false := by decide +kernel
example : matches_ 0 [0, 0, 0, fnApplicationCommandHandler, 0, 0x02, 0, 0xff, 0x06, 0] = .ok false := by decide +kernel
example : matches_ 0 [0, 0, 0, fnApplicationCommandHandler, 0, 0x02, 0, 0x04, 0x06] = .ok true := by decide +kernel
example : matches_ 6 [0, 0, 0, fnApplicationCommandHandler, 0, 0x02, 0, 0x04, 0x06] = .ok true := by decide +kernel
example : matches_ 6 [0, 0, 0, fnApplicationCommandHandler, 0, 0x02, 0, 0x04, 0xff] = .ok false := by decide +kernel

/-! ### gozwave_test.go -/

open Verif.Go Verif.Model Verif.Model.Conn Verif.Spec Verif.Lemmas Verif.Lemmas.Conn Verif.Lemmas.Ctl Verif.Lemmas.NodeM
open Verif.Lemmas.Process Verif.Props

/-- The answer with node 8 active. -/
def tDisc : List UInt8 := [0x01, 0x25, 0x01, 0x02, 0x05, 0x00, 0x1d, 0x80] ++ List.replicate 28 0x00 ++ [0x05, 0x00, 0x44]
/-- The answer with node information. -/
def tInfo : List UInt8 := [0x01, 0x08, 0x01, 0x41, 0x53, 0x9c, 0x00, 0x04, 0x40, 0x3c]
/-- What the test wants to find at node 8. The last byte of the answer, 3c, is its check sum; the 0 in `Specific` is what
`Decode` leaves in its place. -/
def tWant : ProtocolInfo :=
  { listening := false, routing := true, beaming := true, version := 0x04, flirs := false, security := false,
    maxBaud := 40000, basic := 0x04, generic := 0x40, specific := 0x0 }
def tBits : List Bool := List.replicate 7 false ++ [true] ++ List.replicate 224 false

/-- The session of `TestConnect`: each request is written, acknowledged and answered. -/
def tLs : List WLabel :=
  jc [.connect true] ++ [.sys (.connected true)] ++ jt [.startDisc] ++ [.ask .disc] ++
  jc (xSend 0 0 ++ [.client 0 .readField] ++ xAck 0 0) ++ jRead tDisc [0] 3 ++ fHear 0 ++
  jt (.disc (.nodes tBits) :: List.replicate 9 (.disc .nothing)) ++
  jNext 0 1 ++ [.ask (.ident 0 0)] ++
  jc (xSend 0 1 ++ [.client 1 .readField] ++ xAck 1 0) ++ jRead tInfo [1] 3 ++ fHear 1 ++
  jt [.node 0 (.ident 0 (.info tWant))] ++ jNext 0 1

/-- What has been written to the port, oldest first. -/
def written (h : List Ev) : List (List UInt8) := h.reverse.filterMap fun
  | .cmd _ _ m => some m
  | .ack => some [0x06]
  | _ => none

/-- `TestConnect`: what the test expects on the wire, and node 8 with the information the test wants. -/
example : (runSteps (wStep .perIteration demoDB) (wStart false []) tLs).map (fun w =>
    (written w.sys.conn.hist, w.sys.ctl.list.get 8, (w.sys.ctl.heap 0).node.protocolInfo)) =
    some ([[0x01, 0x03, 0x00, 0x02, 0xfe], [0x06], [0x01, 0x04, 0x00, 0x41, 0x08, 0xb2], [0x06]], some 0, some tWant) := by
  decide +kernel

/-- No other information can be taken from that answer. -/
example : (runSteps (wStep .perIteration demoDB) (wStart false [])
    (tLs.map fun l => if l = .sys (.ctl (.node 0 (.ident 0 (.info tWant)))) then
      .sys (.ctl (.node 0 (.ident 0 (.info { tWant with specific := 0x3c })))) else l)).isNone = true := by
  decide +kernel

end Verif.Check
