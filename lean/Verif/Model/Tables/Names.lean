import Verif.Model.Tables.Row

/-
Generated by tools/gen_tables.py from /repo/commands/constants.go and /repo/serialapi/types.go.
-/

namespace Verif.Model.Tables

/-- The constants of commands/constants.go 108-161. -/
def commandConsts : List (List Char × UInt8) := [
  (cs! "Basic", 0x20),
  (cs! "ControllerReplication", 0x21),
  (cs! "ApplicationStatus", 0x22),
  (cs! "SwitchBinary", 0x25),
  (cs! "SwitchMultilevel", 0x26),
  (cs! "SwitchAll", 0x27),
  (cs! "SwitchToggleBinary", 0x28),
  (cs! "SwitchToggleMultilevel", 0x29),
  (cs! "SceneActivation", 0x2B),
  (cs! "SceneActuatorConf", 0x2C),
  (cs! "SensorBinary", 0x30),
  (cs! "SensorMultiLevel", 0x31),
  (cs! "Meter", 0x32),
  (cs! "MeterPulse", 0x35),
  (cs! "ThermostatMode", 0x40),
  (cs! "ThermostatOperatingState", 0x42),
  (cs! "ThermostatSetpoint", 0x43),
  (cs! "ThermostatFanMode", 0x44),
  (cs! "ThermostatFanState", 0x45),
  (cs! "ClimateControlSchedule", 0x46),
  (cs! "BasicWindowCovering", 0x50),
  (cs! "CRC16Encap", 0x56),
  (cs! "AssociationGRPInfo", 0x59),
  (cs! "DeviceResetLocally", 0x5a),
  (cs! "CentralScenev2", 0x5b),
  (cs! "ZwavePlusInfov2", 0x5e),
  (cs! "MultiInstance", 0x60),
  (cs! "Configuration", 0x70),
  (cs! "Alarm", 0x71),
  (cs! "ManufacturerSpecific", 0x72),
  (cs! "PowerLevel", 0x73),
  (cs! "Protection", 0x75),
  (cs! "Lock", 0x76),
  (cs! "NodeNaming", 0x77),
  (cs! "FirmwareUpdateMDv3", 0x7a),
  (cs! "Battery", 0x80),
  (cs! "Clock", 0x81),
  (cs! "Hail", 0x82),
  (cs! "WakeUp", 0x84),
  (cs! "Association", 0x85),
  (cs! "Version", 0x86),
  (cs! "Indicator", 0x87),
  (cs! "Proprietary", 0x88),
  (cs! "Language", 0x89),
  (cs! "MultiInstanceAssociation", 0x8e),
  (cs! "MultiCmd", 0x8F),
  (cs! "EnergyProduction", 0x90),
  (cs! "ManufacturerProprietary", 0x91),
  (cs! "Security", 0x98),
  (cs! "AssociationCommandConfiguration", 0x9b),
  (cs! "Mark", 0xE)]

/-- The cases of `String` in order, commands/constants.go 163-258. -/
def commandCases : List (UInt8 × List Char) := [
  (0x20, cs! "Basic"),
  (0x21, cs! "ControllerReplication"),
  (0x22, cs! "ApplicationStatus"),
  (0x25, cs! "SwitchBinary"),
  (0x26, cs! "SwitchMultilevel"),
  (0x27, cs! "SwitchAll"),
  (0x28, cs! "SwitchToggleBinary"),
  (0x29, cs! "SwitchToggleMultilevel"),
  (0x2B, cs! "SceneActivation"),
  (0x2C, cs! "SceneActuatorConf"),
  (0x30, cs! "SensorBinary"),
  (0x31, cs! "SensorMultiLevel"),
  (0x32, cs! "Meter"),
  (0x35, cs! "MeterPulse"),
  (0x40, cs! "ThermostatMode"),
  (0x42, cs! "ThermostatOperatingState"),
  (0x43, cs! "ThermostatSetpoint"),
  (0x44, cs! "ThermostatFanMode"),
  (0x45, cs! "ThermostatFanState"),
  (0x46, cs! "ClimateControlSchedule"),
  (0x50, cs! "BasicWindowCovering"),
  (0x60, cs! "MultiInstance"),
  (0x70, cs! "Configuration"),
  (0x71, cs! "Alarm"),
  (0x72, cs! "ManufacturerSpecific"),
  (0x73, cs! "PowerLevel"),
  (0x75, cs! "Protection"),
  (0x76, cs! "Lock"),
  (0x77, cs! "NodeNaming"),
  (0x80, cs! "Battery"),
  (0x81, cs! "Clock"),
  (0x82, cs! "Hail"),
  (0x84, cs! "WakeUp"),
  (0x85, cs! "Association"),
  (0x86, cs! "Version"),
  (0x87, cs! "Indicator"),
  (0x88, cs! "Proprietary"),
  (0x89, cs! "Language"),
  (0x8e, cs! "MultiInstanceAssociation"),
  (0x8F, cs! "MultiCmd"),
  (0x90, cs! "EnergyProduction"),
  (0x91, cs! "ManufacturerProprietary"),
  (0x9b, cs! "AssociationCommandConfiguration"),
  (0xEF, cs! "Mark")]

/-- The constants of serialapi/types.go 5-86. -/
def functionConsts : List (List Char × UInt8) := [
  (cs! "None", 0x00),
  (cs! "DiscoveryNodes", 0x02),
  (cs! "SerialApiApplNodeInformation", 0x03),
  (cs! "ApplicationCommandHandler", 0x04),
  (cs! "GetControllerCapabilities", 0x05),
  (cs! "SerialApiSetTimeouts", 0x06),
  (cs! "SerialGetCapabilities", 0x07),
  (cs! "SerialApiSoftReset", 0x08),
  (cs! "SetRFReceiveMode", 0x10),
  (cs! "SetSleepMode", 0x11),
  (cs! "SendNodeInformation", 0x12),
  (cs! "SendData", 0x13),
  (cs! "SendDataMulti", 0x14),
  (cs! "GetVersion", 0x15),
  (cs! "SendDataAbort", 0x16),
  (cs! "RFPowerLevelSet", 0x17),
  (cs! "SendDataMeta", 0x18),
  (cs! "MemoryGetId", 0x20),
  (cs! "MemoryGetByte", 0x21),
  (cs! "MemoryPutByte", 0x22),
  (cs! "MemoryGetBuffer", 0x23),
  (cs! "MemoryPutBuffer", 0x24),
  (cs! "ReadMemory", 0x25),
  (cs! "ClockSet", 0x30),
  (cs! "ClockGet", 0x31),
  (cs! "ClockCompare", 0x32),
  (cs! "RtcTimerCreate", 0x33),
  (cs! "RtcTimerRead", 0x34),
  (cs! "RtcTimerDelete", 0x35),
  (cs! "RtcTimerCall", 0x36),
  (cs! "GetNodeProtocolInfo", 0x41),
  (cs! "SetDefault", 0x42),
  (cs! "ReplicationCommandComplete", 0x44),
  (cs! "ReplicationSendData", 0x45),
  (cs! "AssignReturnRoute", 0x46),
  (cs! "DeleteReturnRoute", 0x47),
  (cs! "RequestNodeNeighborUpdate", 0x48),
  (cs! "ApplicationUpdate", 0x49),
  (cs! "AddNodeToNetwork", 0x4a),
  (cs! "RemoveNodeFromNetwork", 0x4b),
  (cs! "CreateNewPrimary", 0x4c),
  (cs! "ControllerChange", 0x4d),
  (cs! "SetLearnMode", 0x50),
  (cs! "AssignSucReturnRoute", 0x51),
  (cs! "EnableSuc", 0x52),
  (cs! "RequestNetworkUpdate", 0x53),
  (cs! "SetSucNodeId", 0x54),
  (cs! "DeleteSucReturnRoute", 0x55),
  (cs! "GetSucNodeId", 0x56),
  (cs! "SendSucId", 0x57),
  (cs! "RediscoveryNeeded", 0x59),
  (cs! "RequestNodeInfo", 0x60),
  (cs! "RemoveFailedNodeId", 0x61),
  (cs! "IsFailedNode", 0x62),
  (cs! "ReplaceFailedNode", 0x63),
  (cs! "TimerStart", 0x70),
  (cs! "TimerRestart", 0x71),
  (cs! "TimerCancel", 0x72),
  (cs! "TimerCall", 0x73),
  (cs! "GetRoutingTableLine", 0x80),
  (cs! "GetTXCounter", 0x81),
  (cs! "ResetTXCounter", 0x82),
  (cs! "StoreNodeInfo", 0x83),
  (cs! "StoreHomeId", 0x84),
  (cs! "LockRouteResponse", 0x90),
  (cs! "SendDataRouteDemo", 0x91),
  (cs! "SerialApiTest", 0x95),
  (cs! "SerialApiSlaveNodeInfo", 0xa0),
  (cs! "ApplicationSlaveCommandHandler", 0xa1),
  (cs! "SendSlaveNodeInfo", 0xa2),
  (cs! "SendSlaveData", 0xa3),
  (cs! "SetSlaveLearnMode", 0xa4),
  (cs! "GetVirtualNodes", 0xa5),
  (cs! "IsVirtualNode", 0xa6),
  (cs! "SetPromiscuousMode", 0xd0)]

/-- The cases of `String` in order, serialapi/types.go 88-end. -/
def functionCases : List (UInt8 × List Char) := [
  (0x00, cs! "None"),
  (0x02, cs! "DiscoveryNodes"),
  (0x03, cs! "SerialApiApplNodeInformation"),
  (0x04, cs! "ApplicationCommandHandler"),
  (0x05, cs! "GetControllerCapabilities"),
  (0x06, cs! "SerialApiSetTimeouts"),
  (0x07, cs! "SerialGetCapabilities"),
  (0x08, cs! "SerialApiSoftReset"),
  (0x10, cs! "SetRFReceiveMode"),
  (0x11, cs! "SetSleepMode"),
  (0x12, cs! "SendNodeInformation"),
  (0x13, cs! "SendData"),
  (0x14, cs! "SendDataMulti"),
  (0x15, cs! "GetVersion"),
  (0x16, cs! "SendDataAbort"),
  (0x17, cs! "RFPowerLevelSet"),
  (0x18, cs! "SendDataMeta"),
  (0x20, cs! "MemoryGetId"),
  (0x21, cs! "MemoryGetByte"),
  (0x22, cs! "MemoryPutByte"),
  (0x23, cs! "MemoryGetBuffer"),
  (0x24, cs! "MemoryPutBuffer"),
  (0x25, cs! "ReadMemory"),
  (0x30, cs! "ClockSet"),
  (0x31, cs! "ClockGet"),
  (0x32, cs! "ClockCompare"),
  (0x33, cs! "RtcTimerCreate"),
  (0x34, cs! "RtcTimerRead"),
  (0x35, cs! "RtcTimerDelete"),
  (0x36, cs! "RtcTimerCall"),
  (0x41, cs! "GetNodeProtocolInfo"),
  (0x42, cs! "SetDefault"),
  (0x44, cs! "ReplicationCommandComplete"),
  (0x45, cs! "ReplicationSendData"),
  (0x46, cs! "AssignReturnRoute"),
  (0x47, cs! "DeleteReturnRoute"),
  (0x48, cs! "RequestNodeNeighborUpdate"),
  (0x49, cs! "ApplicationUpdate"),
  (0x4a, cs! "AddNodeToNetwork"),
  (0x4b, cs! "RemoveNodeFromNetwork"),
  (0x4c, cs! "CreateNewPrimary"),
  (0x4d, cs! "ControllerChange"),
  (0x50, cs! "SetLearnMode"),
  (0x51, cs! "AssignSucReturnRoute"),
  (0x52, cs! "EnableSuc"),
  (0x53, cs! "RequestNetworkUpdate"),
  (0x54, cs! "SetSucNodeId"),
  (0x55, cs! "DeleteSucReturnRoute"),
  (0x56, cs! "GetSucNodeId"),
  (0x57, cs! "SendSucId"),
  (0x59, cs! "RediscoveryNeeded"),
  (0x60, cs! "RequestNodeInfo"),
  (0x61, cs! "RemoveFailedNodeId"),
  (0x62, cs! "IsFailedNode"),
  (0x63, cs! "ReplaceFailedNode"),
  (0x70, cs! "TimerStart"),
  (0x71, cs! "TimerRestart"),
  (0x72, cs! "TimerCancel"),
  (0x73, cs! "TimerCall"),
  (0x80, cs! "GetRoutingTableLine"),
  (0x81, cs! "GetTXCounter"),
  (0x82, cs! "ResetTXCounter"),
  (0x83, cs! "StoreNodeInfo"),
  (0x84, cs! "StoreHomeId"),
  (0x90, cs! "LockRouteResponse"),
  (0x91, cs! "SendDataRouteDemo"),
  (0x95, cs! "SerialApiTest"),
  (0xa0, cs! "SerialApiSlaveNodeInfo"),
  (0xa1, cs! "ApplicationSlaveCommandHandler"),
  (0xa2, cs! "SendSlaveNodeInfo"),
  (0xa3, cs! "SendSlaveData"),
  (0xa4, cs! "SetSlaveLearnMode"),
  (0xa5, cs! "GetVirtualNodes"),
  (0xa6, cs! "IsVirtualNode"),
  (0xd0, cs! "SetPromiscuousMode")]

end Verif.Model.Tables
