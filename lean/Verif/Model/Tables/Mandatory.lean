import Verif.Model.Tables.Row

/-
Generated by tools/gen_tables.py from /repo/database/mandatory.go, /repo/protocol/constants.go and
/repo/database/mandatory.txt.
-/

namespace Verif.Model.Tables

/-- The constants GENERIC_TYPE_* and SPECIFIC_TYPE_* used in database/mandatory.go, from
protocol/constants.go. -/
def typeConsts : List (List Char × UInt8) := [
  (cs! "GENERIC_TYPE_DISPLAY", 0x04),
  (cs! "GENERIC_TYPE_ENTRY_CONTROL", 0x40),
  (cs! "GENERIC_TYPE_GENERIC_CONTROLLER", 0x01),
  (cs! "GENERIC_TYPE_METER", 0x31),
  (cs! "GENERIC_TYPE_REPEATER_SLAVE", 0x0F),
  (cs! "GENERIC_TYPE_SENSOR_MULTILEVEL", 0x21),
  (cs! "GENERIC_TYPE_SENSOR_NOTIFICATION", 0x07),
  (cs! "GENERIC_TYPE_STATIC_CONTROLLER", 0x02),
  (cs! "GENERIC_TYPE_SWITCH_BINARY", 0x10),
  (cs! "GENERIC_TYPE_SWITCH_MULTILEVEL", 0x11),
  (cs! "GENERIC_TYPE_THERMOSTAT", 0x08),
  (cs! "GENERIC_TYPE_WALL_CONTROLLER", 0x18),
  (cs! "SPECIFIC_TYPE_BASIC_WALL_CONTROLLER", 0x01),
  (cs! "SPECIFIC_TYPE_CLASS_A_MOTOR_CONTROL", 0x05),
  (cs! "SPECIFIC_TYPE_CLASS_B_MOTOR_CONTROL", 0x06),
  (cs! "SPECIFIC_TYPE_CLASS_C_MOTOR_CONTROL", 0x07),
  (cs! "SPECIFIC_TYPE_FAN_SWITCH", 0x08),
  (cs! "SPECIFIC_TYPE_GATEWAY", 0x07),
  (cs! "SPECIFIC_TYPE_IRRIGATION_CONTROLLER", 0x07),
  (cs! "SPECIFIC_TYPE_NOTIFICATION_SENSOR", 0x01),
  (cs! "SPECIFIC_TYPE_PC_CONTROLLER", 0x01),
  (cs! "SPECIFIC_TYPE_PORTABLE_REMOTE_CONTROLLER", 0x01),
  (cs! "SPECIFIC_TYPE_POWER_STRIP", 0x04),
  (cs! "SPECIFIC_TYPE_POWER_SWITCH_BINARY", 0x01),
  (cs! "SPECIFIC_TYPE_POWER_SWITCH_MULTILEVEL", 0x01),
  (cs! "SPECIFIC_TYPE_REMOTE_CONTROL_AV", 0x04),
  (cs! "SPECIFIC_TYPE_REMOTE_CONTROL_SIMPLE", 0x06),
  (cs! "SPECIFIC_TYPE_REPEATER_SLAVE", 0x01),
  (cs! "SPECIFIC_TYPE_ROUTING_MULTILEVEL_SENSOR", 0x01),
  (cs! "SPECIFIC_TYPE_SECURE_BARRIER_ADDON", 0x07),
  (cs! "SPECIFIC_TYPE_SECURE_BARRIER_CLOSE_ONLY", 0x09),
  (cs! "SPECIFIC_TYPE_SECURE_BARRIER_OPEN_ONLY", 0x08),
  (cs! "SPECIFIC_TYPE_SECURE_DOOR", 0x05),
  (cs! "SPECIFIC_TYPE_SECURE_GATE", 0x06),
  (cs! "SPECIFIC_TYPE_SECURE_KEYPAD", 0x0B),
  (cs! "SPECIFIC_TYPE_SECURE_KEYPAD_DOOR_LOCK", 0x03),
  (cs! "SPECIFIC_TYPE_SECURE_LOCKBOX", 0x0A),
  (cs! "SPECIFIC_TYPE_SETBACK_THERMOSTAT", 0x05),
  (cs! "SPECIFIC_TYPE_SET_TOP_BOX", 0x04),
  (cs! "SPECIFIC_TYPE_SIMPLE_DISPLAY", 0x01),
  (cs! "SPECIFIC_TYPE_SIMPLE_METER", 0x01),
  (cs! "SPECIFIC_TYPE_SIREN", 0x05),
  (cs! "SPECIFIC_TYPE_SUB_SYSTEM_CONTROLLER", 0x05),
  (cs! "SPECIFIC_TYPE_THERMOSTAT_GENERAL_V2", 0x06),
  (cs! "SPECIFIC_TYPE_TV", 0x06),
  (cs! "SPECIFIC_TYPE_VALVE_OPEN_CLOSE", 0x06),
  (cs! "SPECIFIC_TYPE_WHOLE_HOME_METER_SIMPLE", 0x03)]

/-- The entries of the literal `definitions` in order, database/mandatory.go 7-1014: names of the two
constants, IDs of the command classes (the other fields of every class are zero). -/
def definitionRows : List ((List Char × List Char) × List UInt8) := [
  -- 8
  ((cs! "GENERIC_TYPE_DISPLAY", cs! "SPECIFIC_TYPE_SIMPLE_DISPLAY"), [0x5e, 0x85, 0x59, 0x5a, 0x72, 0x73, 0x86]),
  -- 34
  ((cs! "GENERIC_TYPE_ENTRY_CONTROL", cs! "SPECIFIC_TYPE_SECURE_BARRIER_ADDON"), [0x5e, 0x5a, 0x72, 0x73, 0x86]),
  -- 54
  ((cs! "GENERIC_TYPE_ENTRY_CONTROL", cs! "SPECIFIC_TYPE_SECURE_BARRIER_CLOSE_ONLY"), [0x5e, 0x5a, 0x72, 0x73, 0x86]),
  -- 74
  ((cs! "GENERIC_TYPE_ENTRY_CONTROL", cs! "SPECIFIC_TYPE_SECURE_BARRIER_OPEN_ONLY"), [0x5e, 0x5a, 0x72, 0x73, 0x86]),
  -- 94
  ((cs! "GENERIC_TYPE_ENTRY_CONTROL", cs! "SPECIFIC_TYPE_SECURE_DOOR"), [0x5e, 0x5a, 0x72, 0x73, 0x86]),
  -- 114
  ((cs! "GENERIC_TYPE_ENTRY_CONTROL", cs! "SPECIFIC_TYPE_SECURE_GATE"), [0x5e, 0x5a, 0x72, 0x73, 0x86]),
  -- 134
  ((cs! "GENERIC_TYPE_ENTRY_CONTROL", cs! "SPECIFIC_TYPE_SECURE_KEYPAD"), [0x5e, 0x5a, 0x72, 0x73, 0x86]),
  -- 154
  ((cs! "GENERIC_TYPE_ENTRY_CONTROL", cs! "SPECIFIC_TYPE_SECURE_KEYPAD_DOOR_LOCK"), [0x5e, 0x5a, 0x72, 0x73, 0x86]),
  -- 174
  ((cs! "GENERIC_TYPE_ENTRY_CONTROL", cs! "SPECIFIC_TYPE_SECURE_LOCKBOX"), [0x5e, 0x5a, 0x72, 0x73, 0x86]),
  -- 194
  ((cs! "GENERIC_TYPE_GENERIC_CONTROLLER", cs! "SPECIFIC_TYPE_PORTABLE_REMOTE_CONTROLLER"), [0x5e, 0x85, 0x59, 0x5a, 0x72, 0x73, 0x86]),
  -- 220
  ((cs! "GENERIC_TYPE_GENERIC_CONTROLLER", cs! "SPECIFIC_TYPE_REMOTE_CONTROL_AV"), [0x5e, 0x85, 0x59, 0x5a, 0x72, 0x73, 0x86]),
  -- 246
  ((cs! "GENERIC_TYPE_GENERIC_CONTROLLER", cs! "SPECIFIC_TYPE_REMOTE_CONTROL_SIMPLE"), [0x5e, 0x85, 0x59, 0x5b, 0x5a, 0x72, 0x73, 0x86]),
  -- 275
  ((cs! "GENERIC_TYPE_METER", cs! "SPECIFIC_TYPE_SIMPLE_METER"), [0x5e, 0x85, 0x59, 0x56, 0x5a, 0x72, 0x32, 0x73, 0x86]),
  -- 307
  ((cs! "GENERIC_TYPE_METER", cs! "SPECIFIC_TYPE_WHOLE_HOME_METER_SIMPLE"), [0x5e, 0x85, 0x59, 0x56, 0x5a, 0x72, 0x32, 0x73, 0x86]),
  -- 339
  ((cs! "GENERIC_TYPE_REPEATER_SLAVE", cs! "SPECIFIC_TYPE_REPEATER_SLAVE"), [0x5e, 0x85, 0x59, 0x5a, 0x72, 0x73, 0x86]),
  -- 365
  ((cs! "GENERIC_TYPE_SENSOR_MULTILEVEL", cs! "SPECIFIC_TYPE_ROUTING_MULTILEVEL_SENSOR"), [0x5e, 0x85, 0x59, 0x5a, 0x72, 0x31, 0x73, 0x86]),
  -- 394
  ((cs! "GENERIC_TYPE_SENSOR_NOTIFICATION", cs! "SPECIFIC_TYPE_NOTIFICATION_SENSOR"), [0x5e, 0x85, 0x59, 0x5a, 0x72, 0x71, 0x73, 0x86]),
  -- 423
  ((cs! "GENERIC_TYPE_STATIC_CONTROLLER", cs! "SPECIFIC_TYPE_GATEWAY"), [0x22, 0x85, 0x59, 0x56, 0x5a, 0x72, 0x73, 0x98, 0x86]),
  -- 455
  ((cs! "GENERIC_TYPE_STATIC_CONTROLLER", cs! "SPECIFIC_TYPE_PC_CONTROLLER"), [0x5e, 0x22, 0x85, 0x59, 0x56, 0x5a, 0x72, 0x73, 0x98, 0x86]),
  -- 490
  ((cs! "GENERIC_TYPE_STATIC_CONTROLLER", cs! "SPECIFIC_TYPE_SET_TOP_BOX"), [0x5e, 0x22, 0x59, 0x85, 0x56, 0x5a, 0x72, 0x73, 0x98, 0x86]),
  -- 525
  ((cs! "GENERIC_TYPE_STATIC_CONTROLLER", cs! "SPECIFIC_TYPE_SUB_SYSTEM_CONTROLLER"), [0x5e, 0x22, 0x85, 0x59, 0x56, 0x5a, 0x72, 0x73, 0x86]),
  -- 557
  ((cs! "GENERIC_TYPE_STATIC_CONTROLLER", cs! "SPECIFIC_TYPE_TV"), [0x5e, 0x22, 0x85, 0x59, 0x56, 0x5a, 0x72, 0x73, 0x98, 0x86]),
  -- 592
  ((cs! "GENERIC_TYPE_SWITCH_BINARY", cs! "SPECIFIC_TYPE_IRRIGATION_CONTROLLER"), [0x5e, 0x85, 0x59, 0x20, 0x25, 0x5a, 0x72, 0x73, 0x86]),
  -- 624
  ((cs! "GENERIC_TYPE_SWITCH_BINARY", cs! "SPECIFIC_TYPE_POWER_STRIP"), [0x5e, 0x59, 0x85, 0x20, 0x25, 0x5a, 0x72, 0x60, 0x85, 0x73, 0x86]),
  -- 662
  ((cs! "GENERIC_TYPE_SWITCH_BINARY", cs! "SPECIFIC_TYPE_POWER_SWITCH_BINARY"), [0x5e, 0x85, 0x59, 0x20, 0x25, 0x5a, 0x72, 0x73, 0x86]),
  -- 694
  ((cs! "GENERIC_TYPE_SWITCH_BINARY", cs! "SPECIFIC_TYPE_SIREN"), [0x5e, 0x85, 0x59, 0x20, 0x25, 0x5a, 0x72, 0x73, 0x86]),
  -- 726
  ((cs! "GENERIC_TYPE_SWITCH_BINARY", cs! "SPECIFIC_TYPE_VALVE_OPEN_CLOSE"), [0x5e, 0x85, 0x59, 0x20, 0x25, 0x5a, 0x72, 0x73, 0x86]),
  -- 758
  ((cs! "GENERIC_TYPE_SWITCH_MULTILEVEL", cs! "SPECIFIC_TYPE_CLASS_A_MOTOR_CONTROL"), [0x5e, 0x85, 0x59, 0x20, 0x25, 0x5a, 0x72, 0x26, 0x73, 0x86]),
  -- 793
  ((cs! "GENERIC_TYPE_SWITCH_MULTILEVEL", cs! "SPECIFIC_TYPE_CLASS_B_MOTOR_CONTROL"), [0x5e, 0x85, 0x59, 0x20, 0x25, 0x5a, 0x72, 0x26, 0x73, 0x86]),
  -- 828
  ((cs! "GENERIC_TYPE_SWITCH_MULTILEVEL", cs! "SPECIFIC_TYPE_CLASS_C_MOTOR_CONTROL"), [0x5e, 0x85, 0x59, 0x20, 0x25, 0x5a, 0x72, 0x26, 0x73, 0x86]),
  -- 863
  ((cs! "GENERIC_TYPE_SWITCH_MULTILEVEL", cs! "SPECIFIC_TYPE_FAN_SWITCH"), [0x5e, 0x85, 0x59, 0x20, 0x5a, 0x72, 0x26, 0x73, 0x86]),
  -- 895
  ((cs! "GENERIC_TYPE_SWITCH_MULTILEVEL", cs! "SPECIFIC_TYPE_POWER_SWITCH_MULTILEVEL"), [0x5e, 0x85, 0x59, 0x20, 0x5a, 0x72, 0x26, 0x73, 0x86]),
  -- 927
  ((cs! "GENERIC_TYPE_THERMOSTAT", cs! "SPECIFIC_TYPE_SETBACK_THERMOSTAT"), [0x5e, 0x59, 0x85, 0x20, 0x5a, 0x72, 0x73, 0x86]),
  -- 956
  ((cs! "GENERIC_TYPE_THERMOSTAT", cs! "SPECIFIC_TYPE_THERMOSTAT_GENERAL_V2"), [0x5e, 0x85, 0x59, 0x20, 0x5a, 0x72, 0x73, 0x86]),
  -- 985
  ((cs! "GENERIC_TYPE_WALL_CONTROLLER", cs! "SPECIFIC_TYPE_BASIC_WALL_CONTROLLER"), [0x5e, 0x85, 0x59, 0x5b, 0x5a, 0x72, 0x73, 0x86])]

/-- database/mandatory.txt 1-60 -/
def mandatoryTxt0 : List (List Char) := [
  cs! "AV control point",
  cs! "# AV control point - GENERIC_TYPE_AV_CONTROL_POINT - SPECIFIC_TYPE_NOT_USED",
  cs! "- Z-Wave Plus Info",
  cs! "- Association (version 2 or newer)",
  cs! "- Association Group Information",
  cs! "//- Battery – (If LSS)",
  cs! "- Device Reset Locally (if the device can be reset, refer to [1])",
  cs! "- Manufacturer Specific",
  cs! "- Power Level",
  cs! "- Simple AV Control",
  cs! "- Version (v2 or newer)",
  cs! "",
  cs! "Motorized barrier devices",
  cs! "# Motorized Barrier - GDO - GENERIC_TYPE_ENTRY_CONTROL - SPECIFIC_TYPE_SECURE_DOOR",
  cs! "# Motorized Barrier - Gate - GENERIC_TYPE_ENTRY_CONTROL - SPECIFIC_TYPE_SECURE_GATE",
  cs! "# Motorized Barrier - Add-ON - GENERIC_TYPE_ENTRY_CONTROL - SPECIFIC_TYPE_SECURE_BARRIER_ADDON",
  cs! "# Motorized Barrier - Open Only - GENERIC_TYPE_ENTRY_CONTROL - SPECIFIC_TYPE_SECURE_BARRIER_OPEN_ONLY",
  cs! "# Motorized Barrier - Close Only - GENERIC_TYPE_ENTRY_CONTROL - SPECIFIC_TYPE_SECURE_BARRIER_CLOSE_ONLY",
  cs! "- Z-Wave Plus Info",
  cs! "//- Battery (If LSS)",
  cs! "- Device Reset Locally (*)",
  cs! "- Manufacturer Specific",
  cs! "- Power Level",
  cs! "- Version (v2 or newer)",
  cs! "+ Z-Wave Plus Info",
  cs! "+ Security",
  cs! "++ Z-Wave Plus Info",
  cs! "++ Application Status",
  cs! "++ Association(v2 or newer)",
  cs! "++ Association Group Information",
  cs! "++ Barrier Operator",
  cs! "//++ Battery (If LSS)",
  cs! "++ Device Reset Locally (*)",
  cs! "++ Manufacturer Specific",
  cs! "++ Notification (v4 or newer)",
  cs! "++ Power Level",
  cs! "++ Version (v2 or newer)",
  cs! "",
  cs! "Central controller",
  cs! "# Central Controller - GENERIC_TYPE_STATIC_CONTROLLER - SPECIFIC_TYPE_PC_CONTROLLER",
  cs! "- Z-Wave Plus Info",
  cs! "- Application Status",
  cs! "- Association (version 2 or newer)",
  cs! "- Association Group Information",
  cs! "- CRC16",
  cs! "- Device Reset Locally (if the device can be reset, refer to [1])",
  cs! "- Manufacturer Specific",
  cs! "- Power Level",
  cs! "- Security",
  cs! "- Version (v2 or newer)",
  cs! "",
  cs! "Display - simple",
  cs! "# Display - Simple - GENERIC_TYPE_DISPLAY - SPECIFIC_TYPE_SIMPLE_DISPLAY",
  cs! "- Z-Wave Plus Info",
  cs! "- Association (version 2 or newer)",
  cs! "- Association Group Information",
  cs! "//- Battery – (if LSS)",
  cs! "- Device Reset Locally (if the device can be reset, refer to [1])",
  cs! "- Manufacturer Specific",
  cs! "- Power Level"]

/-- database/mandatory.txt 61-120 -/
def mandatoryTxt1 : List (List Char) := [
  cs! "- Screen Meta Data",
  cs! "- Version (v2 or newer)",
  cs! "",
  cs! "Door lock - Keypad",
  cs! "# Door Lock - Keypad - GENERIC_TYPE_ENTRY_CONTROL - SPECIFIC_TYPE_SECURE_KEYPAD_DOOR_LOCK",
  cs! "- Z-Wave Plus Info",
  cs! "//- Battery (If LSS)",
  cs! "- Device Reset Locally (*)",
  cs! "- Manufacturer Specific",
  cs! "- Power Level",
  cs! "- Version (v2 or newer)",
  cs! "+ Z-Wave Plus Info",
  cs! "+ Security",
  cs! "++ Z-Wave Plus Info",
  cs! "++ Association(v2 or newer)",
  cs! "++ Association Group Information",
  cs! "//++ Battery (If LSS)",
  cs! "++ Device Reset Locally (*)",
  cs! "++ Door Lock",
  cs! "++ Manufacturer Specific",
  cs! "++ Power Level",
  cs! "++ User Code (***)",
  cs! "++ Version (v2 or newer)",
  cs! "",
  cs! "Entry control keypad",
  cs! "# Entry Control Keypad - GENERIC_TYPE_ENTRY_CONTROL - SPECIFIC_TYPE_SECURE_KEYPAD",
  cs! "- Z-Wave Plus Info",
  cs! "//- Battery (If LSS or RSS)",
  cs! "- Device Reset Locally (*)",
  cs! "- Manufacturer Specific",
  cs! "- Power Level",
  cs! "- Version (v2 or newer)",
  cs! "+ Z-Wave Plus Info",
  cs! "+ Security",
  cs! "++ Z-Wave Plus Info",
  cs! "++ Association(v2 or newer)",
  cs! "++ Association Group Information",
  cs! "//++ Battery (If LSS or RSS)",
  cs! "++ Device Reset Locally (*)",
  cs! "++ Entry Control",
  cs! "++ Manufacturer Specific",
  cs! "++ Power Level",
  cs! "++ Version (v2 or newer)",
  cs! "//++ Wake Up (v3 or newer, if RSS)",
  cs! "",
  cs! "Fan switch",
  cs! "# Fan Switch - GENERIC_TYPE_SWITCH_MULTILEVEL - SPECIFIC_TYPE_FAN_SWITCH",
  cs! "- Z-Wave Plus Info",
  cs! "- Association (version 2 or newer)",
  cs! "- Association Group Information",
  cs! "- Basic",
  cs! "- Device Reset Locally (if the device can be reset, refer to [1])",
  cs! "- Manufacturer Specific",
  cs! "- Multilevel Switch",
  cs! "- Power Level",
  cs! "- Version (v2 or newer)",
  cs! "",
  cs! "Gateway",
  cs! "# Gateway - GENERIC_TYPE_STATIC_CONTROLLER - SPECIFIC_TYPE_GATEWAY",
  cs! "Z-Wave Plus Info"]

/-- database/mandatory.txt 121-180 -/
def mandatoryTxt2 : List (List Char) := [
  cs! "- Application Status",
  cs! "- Association (version 2 or newer)",
  cs! "- Association Group Information",
  cs! "- CRC16",
  cs! "- Device Reset Locally (if the device can be reset, refer to [1])",
  cs! "- Manufacturer Specific",
  cs! "- Power Level",
  cs! "- Security",
  cs! "- Version (v2 or newer)",
  cs! "",
  cs! "Irrigation control",
  cs! "# Irrigation Control - GENERIC_TYPE_SWITCH_BINARY - SPECIFIC_TYPE_IRRIGATION_CONTROLLER",
  cs! "- Z-Wave Plus Info",
  cs! "- Association (version 2 or newer)",
  cs! "- Association Group Information",
  cs! "- Basic",
  cs! "- Binary Switch",
  cs! "- Device Reset Locally (if the device can be reset, refer to [1])",
  cs! "- Manufacturer Specific",
  cs! "- Power Level",
  cs! "- Version (v2 or newer)",
  cs! "",
  cs! "Light dimmer switch",
  cs! "# Light Dimmer Switch - GENERIC_TYPE_SWITCH_MULTILEVEL - SPECIFIC_TYPE_POWER_SWITCH_MULTILEVEL",
  cs! "- Z-Wave Plus Info",
  cs! "- Association (version 2 or newer)",
  cs! "- Association Group Information",
  cs! "- Basic",
  cs! "- Device Reset Locally (if the device can be reset, refer to [1])",
  cs! "- Manufacturer Specific",
  cs! "- Multilevel Switch",
  cs! "- Power Level",
  cs! "- Version (v2 or newer)",
  cs! "",
  cs! "Lockbox",
  cs! "# Lockbox - GENERIC_TYPE_ENTRY_CONTROL - SPECIFIC_TYPE_SECURE_LOCKBOX",
  cs! "- Z-Wave Plus Info",
  cs! "//- Battery (If LSS, RSS or RPC)",
  cs! "- Device Reset Locally (*)",
  cs! "- Manufacturer Specific",
  cs! "- Power Level",
  cs! "- Version (v2 or newer)",
  cs! "//- Wake Up (If RSS or RPC)",
  cs! "+ Z-Wave Plus Info",
  cs! "+ Security",
  cs! "++ Z-Wave Plus Info",
  cs! "++ Association(v2 or newer)",
  cs! "++ Association Group Information",
  cs! "++ Device Reset Locally (*)",
  cs! "++ Door Lock",
  cs! "//++ Battery (If LSS, RSS or RPC)",
  cs! "++ Manufacturer Specific",
  cs! "++ Notification (v3 or newer)",
  cs! "++ Power Level",
  cs! "++ Version (v2 or newer)",
  cs! "//++ Wake Up (If RSS or RPC)",
  cs! "",
  cs! "On/Off power switch",
  cs! "# On/Off Power Switch - GENERIC_TYPE_SWITCH_BINARY - SPECIFIC_TYPE_POWER_SWITCH_BINARY",
  cs! "- Z-Wave Plus Info"]

/-- database/mandatory.txt 181-240 -/
def mandatoryTxt3 : List (List Char) := [
  cs! "- Association (version 2 or newer)",
  cs! "- Association Group Information",
  cs! "- Basic",
  cs! "//- Battery (If LSS)",
  cs! "- Binary Switch",
  cs! "- Device Reset Locally (if the device can be reset, refer to [1])",
  cs! "- Manufacturer Specific",
  cs! "- Power Level",
  cs! "- Version (v2 or newer)",
  cs! "",
  cs! "Power strip",
  cs! "# Power Strip - GENERIC_TYPE_SWITCH_BINARY - SPECIFIC_TYPE_POWER_STRIP",
  cs! "- Z-Wave Plus Info",
  cs! "- Association Group Information",
  cs! "- Association (version 2 or newer)",
  cs! "- Basic",
  cs! "- Binary Switch",
  cs! "- Device Reset Locally (if the device can be reset, refer to [1])",
  cs! "- Manufacturer Specific",
  cs! "- Multi Channel (version 4 or newer)",
  cs! "- Multichannel Association (version 3 or newer)",
  cs! "- Power Level",
  cs! "- Version (v2 or newer)",
  cs! "",
  cs! "Remote control - AV",
  cs! "# Remote Control - AV - GENERIC_TYPE_GENERIC_CONTROLLER - SPECIFIC_TYPE_REMOTE_CONTROL_AV",
  cs! "- Z-Wave Plus Info",
  cs! "- Association (version 2 or newer)",
  cs! "- Association Group Information",
  cs! "//- Battery",
  cs! "- Device Reset Locally (if the device can be reset, refer to [1])",
  cs! "- Manufacturer Specific",
  cs! "- Power Level",
  cs! "- Version (v2 or newer)",
  cs! "//- Wake Up (version 2 or newer)",
  cs! "",
  cs! "Remote controller - Multi purpose",
  cs! "# Remote Controller - Multi Purpose - GENERIC_TYPE_GENERIC_CONTROLLER - SPECIFIC_TYPE_PORTABLE_REMOTE_CONTROLLER",
  cs! "- Z-Wave Plus Info",
  cs! "- Association (version 2 or newer)",
  cs! "- Association Group Information",
  cs! "//- Battery",
  cs! "- Device Reset Locally (if the device can be reset, refer to [1])",
  cs! "- Manufacturer Specific",
  cs! "- Power Level",
  cs! "- Version (v2 or newer)",
  cs! "//- Wake Up (version 2 or newer)",
  cs! "",
  cs! "Remote control - Simple",
  cs! "# Remote Control - Simple - GENERIC_TYPE_GENERIC_CONTROLLER - SPECIFIC_TYPE_REMOTE_CONTROL_SIMPLE",
  cs! "- Z-Wave Plus Info",
  cs! "- Association (version 2 or newer)",
  cs! "- Association Group Information",
  cs! "//- Battery",
  cs! "- Central Scene",
  cs! "- Device Reset Locally (if the device can be reset, refer to [1])",
  cs! "- Manufacturer Specific",
  cs! "- Power Level",
  cs! "- Version (v2 or newer)",
  cs! "//- Wake Up (version 2 or newer)"]

/-- database/mandatory.txt 241-300 -/
def mandatoryTxt4 : List (List Char) := [
  cs! "",
  cs! "Repeater",
  cs! "# Repeater - GENERIC_TYPE_REPEATER_SLAVE - SPECIFIC_TYPE_REPEATER_SLAVE",
  cs! "- Z-Wave Plus Info",
  cs! "- Association (version 2 or newer)",
  cs! "- Association Group Information",
  cs! "- Device Reset Locally (if the device can be reset, refer to [1])",
  cs! "- Manufacturer Specific",
  cs! "- Power Level",
  cs! "- Version (v2 or newer)",
  cs! "",
  cs! "Sensor - Notification",
  cs! "# Sensor - Notification - GENERIC_TYPE_SENSOR_NOTIFICATION - SPECIFIC_TYPE_NOTIFICATION_SENSOR",
  cs! "- Z-Wave Plus Info",
  cs! "- Association (version 2 or newer)",
  cs! "- Association Group Information",
  cs! "//- Battery – Only if battery operated",
  cs! "- Device Reset Locally (if the device can be reset, refer to [1])",
  cs! "- Manufacturer Specific",
  cs! "- Notification",
  cs! "- Power Level",
  cs! "- Version (v2 or newer)",
  cs! "//- Wake Up (version 2 or newer) – Only if battery operated",
  cs! "",
  cs! "Sensor - Multilevel",
  cs! "# Sensor - Multilevel - GENERIC_TYPE_SENSOR_MULTILEVEL - SPECIFIC_TYPE_ROUTING_MULTILEVEL_SENSOR",
  cs! "- Z-Wave Plus Info",
  cs! "- Association (version 2 or newer)",
  cs! "- Association Group Information",
  cs! "//- Battery – Only if battery operated",
  cs! "- Device Reset Locally (if the device can be reset, refer to [1])",
  cs! "- Manufacturer Specific",
  cs! "- Multilevel Sensor",
  cs! "- Power Level",
  cs! "- Version (v2 or newer)",
  cs! "//- Wake Up (version 2 or newer) – if RSS or RPC",
  cs! "",
  cs! "Set top box",
  cs! "# Set Top Box - GENERIC_TYPE_STATIC_CONTROLLER - SPECIFIC_TYPE_SET_TOP_BOX",
  cs! "- Z-Wave Plus Info",
  cs! "- Application Status",
  cs! "- Association Group Information",
  cs! "- Association (version 2 or newer)",
  cs! "- CRC16 - if CSC",
  cs! "- Device Reset Locally (if the device can be reset, refer to [1])",
  cs! "- Manufacturer Specific",
  cs! "- Power Level",
  cs! "- Security - if CSC",
  cs! "- Simple AV",
  cs! "- Version (v2 or newer)",
  cs! "",
  cs! "Siren",
  cs! "# Siren - GENERIC_TYPE_SWITCH_BINARY - SPECIFIC_TYPE_SIREN",
  cs! "- Z-Wave Plus Info",
  cs! "- Association (version 2 or newer)",
  cs! "- Association Group Information",
  cs! "- Basic",
  cs! "//- Battery - Only if battery operated",
  cs! "- Binary Switch",
  cs! "- Device Reset Locally (if the device can be reset, refer to [1])"]

/-- database/mandatory.txt 301-360 -/
def mandatoryTxt5 : List (List Char) := [
  cs! "- Manufacturer Specific",
  cs! "- Power Level",
  cs! "- Version (v2 or newer)",
  cs! "",
  cs! "Sub energy meter",
  cs! "# Sub Energy Meter - GENERIC_TYPE_METER - SPECIFIC_TYPE_SIMPLE_METER",
  cs! "- Z-Wave Plus Info",
  cs! "- Association (version 2 or newer)",
  cs! "- Association Group Information",
  cs! "//- Battery (if RSS)",
  cs! "- CRC16",
  cs! "- Device Reset Locally (if the device can be reset, refer to [1])",
  cs! "- Manufacturer Specific",
  cs! "- Meter (version 2 or newer)",
  cs! "- Power Level",
  cs! "- Version (v2 or newer)",
  cs! "",
  cs! "Sub system controller",
  cs! "# Sub System Controller - GENERIC_TYPE_STATIC_CONTROLLER - SPECIFIC_TYPE_SUB_SYSTEM_CONTROLLER",
  cs! "- Z-Wave Plus Info",
  cs! "- Application Status",
  cs! "- Association (version 2 or newer)",
  cs! "- Association Group Information",
  cs! "- CRC16",
  cs! "- Device Reset Locally (if the device can be reset, refer to [1])",
  cs! "- Manufacturer Specific",
  cs! "- Power Level",
  cs! "- Version (v2 or newer)",
  cs! "",
  cs! "Thermostat - HVAC",
  cs! "# Thermostat - HVAC - GENERIC_TYPE_THERMOSTAT - SPECIFIC_TYPE_THERMOSTAT_GENERAL_V2",
  cs! "- Z-Wave Plus Info",
  cs! "- Association (version 2 or newer)",
  cs! "- Association Group Information",
  cs! "- Basic",
  cs! "//- Battery – If battery operated",
  cs! "- Device Reset Locally (if the device can be reset, refer to [1])",
  cs! "- Manufacturer Specific",
  cs! "- Power Level",
  cs! "- Thermostat Set Point",
  cs! "- Thermostat Mode",
  cs! "- Version (v2 or newer)",
  cs! "//- Wake Up (version 2 or newer) – If RSS or RPC",
  cs! "",
  cs! "Thermostat - Setback",
  cs! "# Thermostat - Setback - GENERIC_TYPE_THERMOSTAT - SPECIFIC_TYPE_SETBACK_THERMOSTAT",
  cs! "- Z-Wave Plus Info",
  cs! "- Association Group Information",
  cs! "- Association (version 2 or newer)",
  cs! "- Basic",
  cs! "//- Battery – If battery operated",
  cs! "- Device Reset Locally (if the device can be reset, refer to [1])",
  cs! "- Manufacturer Specific",
  cs! "- Power Level",
  cs! "- Thermostat Setback",
  cs! "//- Wake Up (version 2 or newer) – If RSS or RPC",
  cs! "- Version (v2 or newer)",
  cs! "",
  cs! "TV",
  cs! "# TV - GENERIC_TYPE_STATIC_CONTROLLER - SPECIFIC_TYPE_TV"]

/-- database/mandatory.txt 361-420 -/
def mandatoryTxt6 : List (List Char) := [
  cs! "- Z-Wave Plus Info",
  cs! "- Application Status",
  cs! "- Association (version 2 or newer)",
  cs! "- Association Group Information",
  cs! "- CRC16 – if CSC",
  cs! "- Device Reset Locally (if the device can be reset, refer to [1])",
  cs! "- Manufacturer Specific",
  cs! "- Power Level",
  cs! "- Security - if CSC",
  cs! "- Simple AV",
  cs! "- Version (v2 or newer)",
  cs! "",
  cs! "Valve - Open/Close",
  cs! "# Valve - open/close - GENERIC_TYPE_SWITCH_BINARY - SPECIFIC_TYPE_VALVE_OPEN_CLOSE",
  cs! "- Z-Wave Plus Info",
  cs! "- Association (version 2 or newer)",
  cs! "- Association Group Information",
  cs! "- Basic",
  cs! "//- Battery",
  cs! "- Binary Switch",
  cs! "- Device Reset Locally (if the device can be reset, refer to [1])",
  cs! "- Manufacturer Specific",
  cs! "- Power Level",
  cs! "- Version (v2 or newer)",
  cs! "",
  cs! "Wall controller",
  cs! "# Wall Controller - GENERIC_TYPE_WALL_CONTROLLER - SPECIFIC_TYPE_BASIC_WALL_CONTROLLER",
  cs! "- Z-Wave Plus Info",
  cs! "- Association (version 2 or newer)",
  cs! "- Association Group Information",
  cs! "//-  Battery – (if PS or RSS)",
  cs! "- Central Scene",
  cs! "- Device Reset Locally (if the device can be reset, refer to [1])",
  cs! "- Manufacturer Specific",
  cs! "- Power Level",
  cs! "- Version (v2 or newer)",
  cs! "//- Wake Up (version 2 or newer) – (if PS or RSS)",
  cs! "",
  cs! "Whole home meter - Simple",
  cs! "# Whole Home Meter - Simple - GENERIC_TYPE_METER - SPECIFIC_TYPE_WHOLE_HOME_METER_SIMPLE",
  cs! "- Z-Wave Plus Info",
  cs! "- Association (version 2 or newer)",
  cs! "- Association Group Information",
  cs! "//- Battery– Only if battery operated",
  cs! "- CRC16",
  cs! "- Device Reset Locally (if the device can be reset, refer to [1])",
  cs! "- Manufacturer Specific",
  cs! "- Meter (version 2 or newer)",
  cs! "- Power Level",
  cs! "- Version (v2 or newer)",
  cs! "",
  cs! "Window covering - No position/endpoint",
  cs! "# Window Covering - No Position/Endpoint - GENERIC_TYPE_SWITCH_MULTILEVEL - SPECIFIC_TYPE_CLASS_A_MOTOR_CONTROL",
  cs! "- Z-Wave Plus Info",
  cs! "- Association (version 2 or newer)",
  cs! "- Association Group Information",
  cs! "- Basic",
  cs! "//- Battery – If using batteries",
  cs! "- Binary Switch",
  cs! "- Device Reset Locally (if the device can be reset, refer to [1])"]

/-- database/mandatory.txt 421-453 -/
def mandatoryTxt7 : List (List Char) := [
  cs! "- Manufacturer Specific",
  cs! "- Multilevel Switch (v3 or newer)",
  cs! "- Power Level",
  cs! "- Version (v2 or newer)",
  cs! "",
  cs! "Window covering - Endpoint aware",
  cs! "# Window Covering - Endpoint Aware - GENERIC_TYPE_SWITCH_MULTILEVEL - SPECIFIC_TYPE_CLASS_B_MOTOR_CONTROL",
  cs! "- Z-Wave Plus Info",
  cs! "- Association (version 2 or newer)",
  cs! "- Association Group Information ",
  cs! "- Basic",
  cs! "//- Battery – If using batteries",
  cs! "- Binary Switch",
  cs! "- Device Reset Locally (if the device can be reset, refer to [1])",
  cs! "- Manufacturer Specific",
  cs! "- Multilevel Switch (v3 or newer)",
  cs! "- Power Level",
  cs! "- Version (v2 or newer)",
  cs! "",
  cs! "Window covering - Position/Endpoint aware",
  cs! "# Window Covering - Position/Endpoint Aware - GENERIC_TYPE_SWITCH_MULTILEVEL - SPECIFIC_TYPE_CLASS_C_MOTOR_CONTROL",
  cs! "- Z-Wave Plus Info",
  cs! "- Association (version 2 or newer)",
  cs! "- Association Group Information",
  cs! "- Basic",
  cs! "//- Battery – If using batteries",
  cs! "- Binary Switch",
  cs! "- Device Reset Locally (if the device can be reset, refer to [1])",
  cs! "- Manufacturer Specific",
  cs! "- Multilevel Switch (v3 or newer)",
  cs! "- Power Level",
  cs! "- Version (v2 or newer)",
  cs! ""]

/-- The lines of database/mandatory.txt. -/
def mandatoryTxt : List (List Char) :=
  mandatoryTxt0 ++ mandatoryTxt1 ++ mandatoryTxt2 ++ mandatoryTxt3 ++ mandatoryTxt4 ++ mandatoryTxt5 ++ mandatoryTxt6 ++ mandatoryTxt7

end Verif.Model.Tables
