import Verif.Model.Tables.FileRow

/-
Generated by tools/gen_tables.py from the files of /repo/database/json in the order of their names: the
fields the generator of devices.go reads, without the parameters.
-/

namespace Verif.Model.Tables

/-- database/json, files 401-450 -/
def devFiles8 : List DevFile := [
  -- qubino_zmnhda_0_0.json
  ⟨cs! "0159", [cs! "0001:0001"], "Goap", "ZMNHDA", "Flush dimmer",
   [[0x2400, 0x2520, 0x2525, 0x4526, 0x2527, 0x4531, 0x4532, 0x3560, 0x2570, 0x2572, 0x2573, 0x2585, 0x2586], [0x1420, 0x1430], [0x1420, 0x1430]]⟩,
  -- qubino_zmnhdd_0_0.json
  ⟨cs! "0159", [cs! "0001:0051"], "Goap", "ZMNHDD", "Flush Dimmer Plus",
   [[0x2400, 0x2420, 0x2425, 0x4426, 0x2430, 0x6431, 0x4432, 0x3460, 0x2470, 0x2471, 0x2472, 0x2485, 0x2486], [0x1420, 0x2425, 0x4426, 0x4432, 0x2485, 0x2486], [0x1420, 0x2430, 0x2471, 0x2485, 0x2486], [0x1420, 0x2430, 0x2471, 0x2485, 0x2486]]⟩,
  -- qubino_zmnhia_0_0.json
  ⟨cs! "0159", [cs! "0005:0001"], "Goap", "ZMNHIA", "Flush on/off thermostat",
   [[0x2400, 0x2420, 0x4531, 0x4532, 0x2540, 0x2543, 0x3560, 0x2570, 0x1572, 0x2573, 0x2585, 0x2586], [0x1420, 0x1430], [0x1420, 0x1430]]⟩,
  -- qubino_zmnhid_0_0.json
  ⟨cs! "0159", [cs! "0005:0051"], "Goap", "ZMNHID", "Flush on/off thermostat",
   [[0x2400, 0x2420, 0x2427, 0x6431, 0x4432, 0x3440, 0x3443, 0x2470, 0x2472, 0x2485, 0x2486]]⟩,
  -- qubino_zmnhja2_0_0.json
  ⟨cs! "0159", [cs! "0004:0001"], "Qubino", "ZMNHJA2", "Qubino Flush Pilot",
   [[0x2400, 0x2520, 0x2525, 0x4526, 0x2527, 0x4531, 0x3560, 0x2570, 0x2572, 0x2585, 0x2586], [0x1420, 0x1430], [0x1420, 0x1430], [0x1420, 0x1430]]⟩,
  -- qubino_zmnhja_0_0.json
  ⟨cs! "0159", [cs! "0004:0001"], "Goap", "ZMNHJA", "Flush Pilot",
   [[0x2400, 0x2520, 0x2525, 0x4526, 0x2527, 0x4531, 0x3560, 0x2570, 0x2572, 0x2585, 0x2586], [0x1420, 0x1430], [0x1420, 0x1430], [0x1420, 0x1430]]⟩,
  -- qubino_zmnhjd_0_0.json
  ⟨cs! "0159", [cs! "0004:0051"], "Goap", "ZMNHJD", "Flush Pilot",
   [[0x2400, 0x2420, 0x2425, 0x4426, 0x2427, 0x4431, 0x3460, 0x2470, 0x2472, 0x2485, 0x2486], [0x1420, 0x1430, 0x2485, 0x2486], [0x1420, 0x1430, 0x2485, 0x2486], [0x1420, 0x1430, 0x2485, 0x2486]]⟩,
  -- qubino_zmnhla_0_0.json
  ⟨cs! "0159", [cs! "0005:0003"], "Goap", "ZMNHLA", "Flush PWM thermostat",
   [[0x2400, 0x2420, 0x4431, 0x4432, 0x3440, 0x3443, 0x2470, 0x2472, 0x2485, 0x2486]]⟩,
  -- qubino_zmnhld_0_0.json
  ⟨cs! "0159", [cs! "0005:0053"], "Goap", "ZMNHLD", "Flush PWM Thermostat",
   [[0x1420, 0x1427, 0x1430, 0x8431, 0x5432, 0x3440, 0x3443, 0x3459, 0x145a, 0x345e, 0x3470, 0x3472, 0x1473, 0x3485, 0x3486, 0x14ef], [0x2420, 0x1430, 0x8431, 0x5432, 0x3440, 0x3443, 0x145a, 0x145e, 0x3472, 0x3485, 0x3486], [0x1430, 0x5432, 0x1440, 0x3443], [0x1430], [0x1430], [0x8431]]⟩,
  -- qubino_zmnhnd_0_0.json
  ⟨cs! "0159", [cs! "0002:0053"], "Goap", "ZMNHND", "Flush 1D relay",
   [[0x2400, 0x2420, 0x2425, 0x2427, 0x1430, 0x8431, 0x2459, 0x245a, 0x245e, 0x3460, 0x2470, 0x2472, 0x2473, 0x3485, 0x3486, 0x448e], [0x1420, 0x2425, 0x2427, 0x2459, 0x245e, 0x3485, 0x3486, 0x448e], [0x1420, 0x8431, 0x2459, 0x245e, 0x3485, 0x3486, 0x448e]]⟩,
  -- qubino_zmnhod_0_0.json
  ⟨cs! "0159", [cs! "0003:0053"], "Goap", "ZMNHOD", "Flush Shutter DC",
   [[0x2400, 0x2520, 0x2525, 0x4526, 0x2527, 0x1430, 0x8531, 0x4532, 0x2559, 0x255a, 0x255e, 0x3560, 0x2570, 0x2572, 0x2573, 0x2585, 0x2586, 0x158e], [0x1420, 0x2425, 0x4426, 0x2427, 0x4432, 0x2459, 0x245e, 0x2485, 0x2486], [0x1420, 0x8431, 0x2459, 0x245e, 0x2485, 0x2486]]⟩,
  -- qubino_zmnhsd_0_0.json
  ⟨cs! "0159", [cs! "0001:0052"], "Goap", "ZMNHSD", "DIN Rail Dimmer",
   [[0x2400, 0x2420, 0x2425, 0x4426, 0x2427, 0x4432, 0x2470, 0x2472, 0x2485, 0x2486]]⟩,
  -- qubino_zmnhvd_0_0.json
  ⟨cs! "0159", [cs! "0001:0053"], "Goap", "ZMNHVD", "Flush Dimmer 0-10V ",
   [[0x2400, 0x2520, 0x2525, 0x4526, 0x2527, 0x2559, 0x255a, 0x255e, 0x2570, 0x2572, 0x2573, 0x2585, 0x2586, 0x158e]]⟩,
  -- qubino_zmnhwd_0_0.json
  ⟨cs! "0159", [cs! "0001:0054"], "Goap", "ZMNHWD", "Qubino Flush RGBW Dimmer",
   [[0x2400, 0x2520, 0x2525, 0x3526, 0x3533, 0x2559, 0x255a, 0x255e, 0x2570, 0x2572, 0x2573, 0x257a, 0x3585, 0x3586]]⟩,
  -- qubino_zmnhwdx_0_0.json
  ⟨cs! "0159", [cs! "0001:0054"], "Goap", "ZMNHWD", "Qubino Flush RGBW Dimmer",
   [[0x2400, 0x2520, 0x2525, 0x3526, 0x3533, 0x2559, 0x255a, 0x255e, 0x2570, 0x2572, 0x2573, 0x257a, 0x3585, 0x3586]]⟩,
  -- qubino_zmnhzd_0_0.json
  ⟨cs! "0159", [cs! "0007:0053"], "Goap", "ZMNHZD", "Multifunctional Weather Station",
   [[0x2400, 0x2420, 0x6431, 0x3460, 0x2470, 0x2472, 0x2480, 0x2485, 0x2486], [0x1420, 0x6431, 0x2480, 0x2485, 0x2486], [0x1420, 0x6431, 0x2480, 0x2485, 0x2486], [0x1420, 0x6431, 0x2480, 0x2485, 0x2486], [0x1420, 0x6431, 0x2480, 0x2485, 0x2486], [0x1420, 0x6431, 0x2480, 0x2485, 0x2486], [0x1420, 0x6431, 0x2480, 0x2485, 0x2486], [0x1420, 0x6431, 0x2480, 0x2485, 0x2486], [0x1420, 0x6431, 0x2480, 0x2485, 0x2486], [0x1420, 0x6431, 0x2480, 0x2485, 0x2486], [0x1420, 0x6431, 0x2480, 0x2485, 0x2486]]⟩,
  -- rcs_tbz48_0_0.json
  ⟨cs! "0010", [cs! "5442:5432"], "Residential Control Systems, Inc. (RCS)", "TBZ48", "Thermostat",
   [[0x2400, 0x2420, 0x242b, 0x2431, 0x2440, 0x2442, 0x3443, 0x2444, 0x2445, 0x2470, 0x2472, 0x2480, 0x2485, 0x2486, 0x248f]]⟩,
  -- rcs_tz43_0_0.json
  ⟨cs! "0010", [cs! "0001:0002"], "Residential Control Systems, Inc. (RCS)", "TZ43", "Thermostat",
   [[0x2400, 0x2420, 0x2531, 0x2540, 0x2542, 0x2543, 0x2544, 0x2545, 0x2570, 0x2572, 0x2576, 0x2581, 0x2585, 0x2586]]⟩,
  -- reitz_05431_0_0.json
  ⟨cs! "0064", [cs! "2001:0000"], "Reitz-Group.de", "Reitz 05431", "Duewi ZW BJ ES 1000 / Reitz 05431 / ZWave.me 05457 Single button wall switch",
   [[0x2400, 0x2420, 0x2525, 0x2527, 0x2572, 0x2575, 0x2582, 0x2585, 0x2586, 0x2587]]⟩,
  -- reitz_05433_0_0.json
  ⟨cs! "0064", [cs! "0001:0000"], "Reitz-Group.de", "05433", "One Paddle Wall Dimmer Insert",
   [[0x2400, 0x2420, 0x3526, 0x2527, 0x2572, 0x2575, 0x2582, 0x2585, 0x2586, 0x2587]]⟩,
  -- reitz_054375_0_0.json
  ⟨cs! "0064", [cs! "3001:0000", cs! "3002:0000"], "Reitz-Group.de", "054375", "Schuko Plug Switch",
   [[0x2400, 0x2420, 0x2525, 0x2527, 0x2572, 0x2575, 0x2582, 0x2586, 0x2587]]⟩,
  -- reitz_05443_0_0.json
  ⟨cs! "0064", [cs! "5002:0000"], "Reitz-Group.de", "Duwi ZW WS - 05443", "Battery powered One paddle wall controller",
   [[0x2400, 0x2420, 0x2572, 0x2580, 0x2585]]⟩,
  -- reitz_06436_0_0.json
  ⟨cs! "0064", [cs! "4001:0000"], "Reitz-Group.de", "06436", "Insert blind control",
   [[0x2400, 0x2420, 0x2525, 0x2526, 0x2527, 0x2570, 0x2572, 0x2575, 0x2582, 0x2585, 0x2586, 0x2587]]⟩,
  -- reitz_064394_0_0.json
  ⟨cs! "0064", [cs! "1001:0000"], "Reitz-Group.de", "064394", "Schuko Plug Dimmer",
   [[0x2400, 0x2420, 0x3526, 0x2527, 0x2572, 0x2575, 0x2582, 0x2586, 0x2587]]⟩,
  -- reitz_duwrpt_0_0.json
  ⟨cs! "0064", [cs! "5003:0000"], "Reitz-Group.de", "DUW_RPT", "Düwi Repeater",
   [[0x2400, 0x2420, 0x2571, 0x2572, 0x2580, 0x2586, 0x2587]]⟩,
  -- reitz_swiidplug_0_0.json
  ⟨cs! "0064", [cs! "0166:2007"], "Reitz-Group.de", "swiidplug", "SwiidPlug",
   [[0x2400, 0x2420, 0x2525, 0x2527, 0x2572, 0x2575, 0x2582, 0x2586, 0x2587]]⟩,
  -- reitz_zme05431_0_0.json
  ⟨cs! "0064", [cs! "1000:0009"], "Reitz-Group.de", "ZME_05431", "Switch",
   [[0x2400, 0x2520, 0x2525, 0x1426, 0x2527, 0x252b, 0x252c, 0x252d, 0x4532, 0x2559, 0x255a, 0x255e, 0x2570, 0x2572, 0x2573, 0x2575, 0x2577, 0x3585, 0x3586, 0x2587, 0x358e]]⟩,
  -- reitz_zme05433ex_0_0.json
  ⟨cs! "0064", [cs! "1000:0009"], "Reitz-Group.de", "POPP/ZWave.Me 05433-EX", "Zwave.Me Dimmer Set Everlux",
   [[0x2400, 0x2520, 0x4526, 0x2527, 0x252b, 0x252c, 0x252d, 0x4532, 0x2559, 0x255a, 0x255e, 0x2570, 0x2572, 0x2573, 0x2575, 0x2577, 0x3585, 0x3586, 0x2587, 0x358e]]⟩,
  -- reitz_zwesj300_0_0.json
  ⟨cs! "0064", [cs! "4001:0000"], "Reitz-Group.de", "ZW ESJ 300", "Duwi ZW ESJ 300 Blind Control",
   [[0x2425, 0x2426, 0x2427, 0x2470, 0x2472, 0x2475, 0x2482, 0x2485, 0x2486, 0x2487]]⟩,
  -- remotec_zfm80_0_0.json
  ⟨cs! "5254", [cs! "8000:0002"], "Remotec", "ZFM-80", "Fixture Switch Module",
   [[0x2400, 0x2420, 0x2425, 0x2427, 0x2470, 0x2472, 0x2485, 0x2486]]⟩,
  -- remotec_zrc100_0_0.json
  ⟨cs! "5254", [cs! "0001:8380", cs! "0002:8380"], "Remotec", "ZRC-100", "Remote Control",
   [[0x2400, 0x2420, 0x2521, 0x252d, 0x2572, 0x2584, 0x2585, 0x2586, 0x258e, 0x2598]]⟩,
  -- remotec_zrc90_0_0.json
  ⟨cs! "5254", [cs! "0000:8510", cs! "0001:8510", cs! "0002:8510"], "Remotec", "ZRC-90", "Scene master 8 button remote",
   [[0x2400, 0x2420, 0x2521, 0x2559, 0x255a, 0x255b, 0x255e, 0x2572, 0x2573, 0x2580, 0x3584, 0x2585, 0x2586]]⟩,
  -- remotec_zts110_0_0.json
  ⟨cs! "5254", [cs! "0200:8031", cs! "0202:8031"], "Remotec", "ZTS-110", "Remotec ZTS-110 Z Wave Thermostat",
   [[0x2400, 0x2420, 0x2431, 0x2440, 0x2442, 0x2443, 0x2444, 0x2445, 0x2470, 0x2472, 0x2480, 0x2485, 0x2486]]⟩,
  -- remotec_zxt-120au_0_0.json
  ⟨cs! "5254", [cs! "0102:8377"], "Remotec", "ZXT-120AU", "Remotec ZXT-120 AC IR Remote",
   []⟩,
  -- remotec_zxt120_0_0.json
  ⟨cs! "5254", [cs! "0101:8377", cs! "0102:8377", cs! "0100:8377"], "Remotec", "ZXT-120", "AC IR Remote",
   [[0x2400, 0x2520, 0x2527, 0x2531, 0x3540, 0x3543, 0x3544, 0x2570, 0x2572, 0x2580, 0x2586]]⟩,
  -- rimport_razberry2_1_1.json
  ⟨cs! "0147", [cs! "0400:0001", cs! "0400:0002"], "R-import Ltd.", "RaZberry Controller 2016 ZWave+", "Z-Wave.Me Razberry daughtercard",
   [[0x2400, 0x1420]]⟩,
  -- rimport_zmeeraz2_0_0.json
  ⟨cs! "0147", [cs! "0400:0002"], "R-import Ltd.", "ZMEERAZ2", "RaZberry2",
   [[0x2400, 0x1420]]⟩,
  -- rtc_ct100_0_0.json
  ⟨cs! "0098", [cs! "6401:0015", cs! "6401:0105", cs! "6401:0106", cs! "6401:0107", cs! "6401:01FD", cs! "6501:000B"], "Radio Thermostat Company of America (RTC)", "CT100", "Z-Wave Thermostat",
   [[0x2400, 0x2420, 0x3431, 0x3440, 0x3442, 0x3443, 0x2444, 0x2445, 0x3460, 0x2470, 0x2472, 0x2480, 0x2581, 0x2485, 0x2486, 0x2487], [0x1420, 0x3431, 0x2485], [0x1420, 0x3431, 0x2485]]⟩,
  -- rtc_ct101_0_0.json
  ⟨cs! "0098", [cs! "6501:000C"], "Radio Thermostat Company of America", "CT101", "Z-Wave Thermostat",
   []⟩,
  -- rtc_ct110thermostat_0_0.json
  ⟨cs! "0098", [cs! "6E02:0101"], "Radio Thermostat Company of America (RTC)", "CT110 Thermostat", "CT-110 Thermostat. RadioThermostat company.",
   [[0x2400, 0x2420, 0x6431, 0x3440, 0x3442, 0x3443, 0x2444, 0x2445, 0x3460, 0x2470, 0x2472, 0x2480, 0x2481, 0x2485, 0x2486, 0x2487], [0x1420, 0x6431, 0x3440, 0x3442, 0x3443, 0x2444, 0x2445, 0x2470, 0x2472, 0x2480, 0x2481, 0x2485, 0x2486, 0x2487], [0x1420, 0x6431, 0x2485]]⟩,
  -- rtc_ct30_0_0.json
  ⟨cs! "0098", [cs! "0001:001E", cs! "1E10:0158", cs! "1E12:015E", cs! "3200:015E", cs! "1E12:015C", cs! "0000:0000"], "Radio Thermostat Company of America (RTC)", "CT30", "Z-Wave Thermostat",
   [[0x2400, 0x2420, 0x3431, 0x3440, 0x2442, 0x3443, 0x2444, 0x2470, 0x2472, 0x2480, 0x2481, 0x2486, 0x2487]]⟩,
  -- rtc_ct32_0_0.json
  ⟨cs! "0098", [cs! "2002:0100", cs! "2002:0102", cs! "0002:0100"], "Radio Thermostat Company of America (RTC)", "CT32", "Z-Wave Thermostat",
   [[0x2400, 0x2520, 0x6531, 0x2540, 0x2542, 0x2543, 0x2544, 0x2545, 0x2559, 0x255a, 0x255e, 0x3560, 0x2570, 0x2572, 0x2573, 0x2580, 0x2581, 0x2585, 0x2586, 0x2587], [0x1420, 0x6431, 0x2440, 0x2442, 0x2443, 0x2444, 0x2445, 0x2459, 0x245a, 0x245e, 0x2470, 0x2472, 0x2473, 0x2480, 0x2481, 0x2485, 0x2486, 0x2487], [0x1420, 0x6431, 0x2485]]⟩,
  -- schlage_be369_0_0.json
  ⟨cs! "003B", [cs! "634B:5044"], "Allegion", "BE369", "Keypad Deadbolt",
   [[0x2600, 0x2620, 0x2662, 0x2663, 0x2670, 0x2671, 0x2473, 0x2680, 0x2485, 0x2686, 0x2498]]⟩,
  -- schlage_be468_0_0.json
  ⟨cs! "003B", [cs! "6349:5044"], "Allegion", "BE468", "Touchscreen Deadbolt",
   [[0x2400, 0x2420, 0x2422, 0x2462, 0x2463, 0x2470, 0x4471, 0x2472, 0x247a, 0x2480, 0x2485, 0x2486, 0x2498]]⟩,
  -- schlage_be469_0_0.json
  ⟨cs! "003B", [cs! "6341:5044"], "Allegion", "BE469", "Touchscreen Deadbolt",
   [[0x2400, 0x2220, 0x2522, 0x2262, 0x2263, 0x2270, 0x4271, 0x2572, 0x157a, 0x2280, 0x2285, 0x2586, 0x1598]]⟩,
  -- schlage_fe599nx_0_0.json
  ⟨cs! "003B", [cs! "634B:504C"], "Allegion", "FE599NX", "Connected Keypad with Lever",
   [[0x2600, 0x2620, 0x1262, 0x2263, 0x2270, 0x2271, 0x2572, 0x2573, 0x2476, 0x2280, 0x2585, 0x2286, 0x2598]]⟩,
  -- seco_clamp_0_0.json
  ⟨cs! "0301", [cs! "0048:010F"], "Seco", "Zwave Clamp", "Clamp Energy Meter",
   [[0x2400, 0x2420, 0x4532, 0x253d, 0x1556, 0x2559, 0x255a, 0x255e, 0x2570, 0x2572, 0x2573, 0x3585, 0x3586, 0x158a, 0x258b]]⟩,
  -- sensative_1101011_0_0.json
  ⟨cs! "019A", [cs! "0003:0003"], "Sensative AB", "11-01-011", "Strips-MaZw",
   [[0x2400, 0x2420, 0x2430, 0x2470, 0x4471, 0x2472, 0x2480, 0x3484, 0x2485, 0x2486]]⟩,
  -- shenzhen_doorsensorin_0_0.json
  ⟨cs! "0258", [cs! "0003:3082"], "Shenzhen Neo Electronics Co., Ltd", "Door Sensor IN", "Door Sensor",
   [[0x2400, 0x2420, 0x3530, 0x2559, 0x255a, 0x255e, 0x2570, 0x9571, 0x2572, 0x2573, 0x2580, 0x3584, 0x3585, 0x3586]]⟩,
  -- shenzhen_doorwindowsensor_0_0.json
  ⟨cs! "0258", [cs! "0003:1082"], "Shenzhen Neo Electronics Co., Ltd", "Door/Window Sensor", "Door/Window Sensor",
   [[0x2400, 0x2420, 0x3530, 0x2559, 0x255a, 0x255e, 0x2570, 0x4571, 0x2572, 0x2573, 0x2580, 0x3584, 0x2585, 0x2586]]⟩]

/-- database/json, files 451-500 -/
def devFiles9 : List DevFile := [
  -- shenzhen_floodsensor_0_0.json
  ⟨cs! "0258", [cs! "0003:1085"], "Shenzhen Neo Electronics Co., Ltd", "Flood sensor", "Flood/water sensor",
   [[0x2400, 0x2420, 0x3430, 0x2459, 0x245a, 0x345e, 0x2070, 0x2471, 0x3472, 0x2473, 0x2480, 0x3484, 0x3485, 0x2486]]⟩,
  -- shenzhen_motionsensor_0_0.json
  ⟨cs! "0258", [cs! "0003:1083"], "Shenzhen Neo Electronics Co., Ltd", "Motion Sensor", "PIR Motion Sensor",
   [[0x2400, 0x2420, 0x3530, 0x8531, 0x2559, 0x255a, 0x255e, 0x2570, 0x4571, 0x2572, 0x2573, 0x2580, 0x3584, 0x2585, 0x2586]]⟩,
  -- shenzhen_motionsensorin_0_0.json
  ⟨cs! "0258", [cs! "0003:3083"], "Shenzhen Neo Electronics Co., Ltd", "Motion Sensor IN", "Motion Sensor IN",
   [[0x2400, 0x2420, 0x3530, 0x8531, 0x2559, 0x255a, 0x255e, 0x2570, 0x9571, 0x2572, 0x2573, 0x2580, 0x3584, 0x3585, 0x3586]]⟩,
  -- shenzhen_nasds01z_0_0.json
  ⟨cs! "0258", [cs! "0003:0082"], "Shenzhen Neo Electronics Co., Ltd", "NAS-DS01Z", "Cyrus Door Window Sensor",
   [[0x2400, 0x2420, 0x3530, 0x2559, 0x255a, 0x255e, 0x2570, 0x4571, 0x2572, 0x2573, 0x2580, 0x3584, 0x2585, 0x3586]]⟩,
  -- shenzhen_powerplug_0_0.json
  ⟨cs! "0258", [cs! "0003:1087"], "Shenzhen Neo Electronics Co., Ltd", "Power Plug", "Metered Wall Plug Switch",
   [[0x2400, 0x2520, 0x2525, 0x2527, 0x4532, 0x2559, 0x255a, 0x255e, 0x2570, 0x4571, 0x2572, 0x2573, 0x2585, 0x2586]]⟩,
  -- shenzhen_sirenalarm_0_0.json
  ⟨cs! "0258", [cs! "0003:1088"], "Shenzhen Neo Electronics Co., Ltd", "Siren Alarm", "Siren Alarm",
   [[0x2400, 0x2420, 0x2425, 0x2470, 0x2471, 0x2472, 0x2480, 0x2485, 0x2486]]⟩,
  -- siegeniaaubi_sensoair_0_0.json
  ⟨cs! "0081", [cs! "00A0:0001"], "SIEGENIA-AUBI KG", "Sensoair", "Air quality sensor for indoor use",
   [[0x2400, 0x2420, 0x4531, 0x2570, 0x2572, 0x1573, 0x2585, 0x2586, 0x259e]]⟩,
  -- sigma_zwck8_0_0.json
  ⟨cs! "0000", [cs! "0003:0003"], "Sigma Designs (Former Zensys)", "K8", "Z-Wave Battery Wall Controller",
   [[0x2400, 0x2420, 0x2526, 0x1030, 0x2559, 0x255a, 0x255e, 0x2572, 0x2573, 0x257a, 0x2580, 0x3584, 0x2585, 0x3586]]⟩,
  -- somfy_zrtsi_0_0.json
  ⟨cs! "0047", [cs! "5A52:5400"], "Somfy", "ZRTSI", "Z-Wave to RTS Interface Controller",
   [[0x2400, 0x2420, 0x2472, 0x2486]]⟩,
  -- somfy_zrtsivnode_0_0.json
  ⟨cs! "0047", [cs! "5A52:5401", cs! "5A52:5402", cs! "5A52:5403", cs! "5A52:5404", cs! "5A52:5405", cs! "5A52:5406", cs! "5A52:5407", cs! "5A52:5408", cs! "5A52:5409", cs! "5A52:540A", cs! "5A52:540B", cs! "5A52:540C", cs! "5A52:540D", cs! "5A52:540E", cs! "5A52:540F", cs! "5A52:5410"], "Somfy", "ZRTSI-VNODE", "Z-Wave to RTS Interface Virtual Node",
   [[0x2400, 0x2420, 0x2425, 0x4426, 0x242b, 0x2472, 0x2486]]⟩,
  -- stelpro_stzw402_0_0.json
  ⟨cs! "0239", [cs! "0001:0001"], "Stelpro", "STZW402", "4000W Thermostat",
   [[0x2400, 0x2520, 0x2531, 0x3540, 0x2542, 0x3543, 0x1559, 0x255a, 0x255e, 0x2572, 0x2573, 0x2585, 0x2586]]⟩,
  -- swiid_swzcs1_0_0.json
  ⟨cs! "0166", [cs! "0100:0100"], "Swiid", "SW-ZCS-1", "Cord Switch",
   [[0x2400, 0x2420, 0x2525, 0x2527, 0x2572, 0x2585, 0x2586]]⟩,
  -- systemair_29990_0_0.json
  ⟨cs! "0276", [cs! "0139:0001"], "Systemair Sverige AS", "29990", "Remotely Controlled Ventilation",
   [[0x2400, 0x2420, 0x2522, 0x2525, 0x2540, 0x2543, 0x2544, 0x2559, 0x255a, 0x255e, 0x2570, 0x4571, 0x2572, 0x2573, 0x257a, 0x3585, 0x3586]]⟩,
  -- telldus_tzdw100_0_0.json
  ⟨cs! "0176", [cs! "0005:0001"], "Telldus Technologies AB", "TZDW-100", "Door/window sensor",
   [[0x2400, 0x2420, 0x3430, 0x245a, 0x345e, 0x2470, 0x5471, 0x2472, 0x2473, 0x347a, 0x2480, 0x3484, 0x3485, 0x3486, 0x348e]]⟩,
  -- telldus_tzwp100_0_0.json
  ⟨cs! "0176", [cs! "0003:0001"], "Telldus Technologies AB", "TZWP-100", "Wall Plug Switch",
   [[0x2400, 0x2420, 0x2525, 0x2527, 0x2559, 0x255a, 0x255e, 0x2570, 0x2572, 0x2573, 0x3575, 0x257a, 0x2585, 0x2586]]⟩,
  -- thermofloor_tf016_0_0.json
  ⟨cs! "019B", [cs! "0001:0001"], "ThermoFloor", "TF016", "ZWave Thermostat",
   [[0x2400, 0x2420, 0x7531, 0x4032, 0x2540, 0x2543, 0x2559, 0x255a, 0x255e, 0x2570, 0x2572, 0x2573, 0x2585, 0x2586]]⟩,
  -- thermofloor_tf016_1_8.json
  ⟨cs! "019B", [cs! "0001:0001"], "ThermoFloor", "TF016", "ZWave Thermostat",
   [[0x2400, 0x2420, 0x6431, 0x3440, 0x3443, 0x2470, 0x2472, 0x2485, 0x2486]]⟩,
  -- tkb_tsm02_0_0.json
  ⟨cs! "0118", [cs! "0002:0002"], "TKB Home", "TSM02", "Slim Multi-Sensor",
   [[0x2400, 0x2420, 0x3530, 0x6531, 0x2570, 0x2572, 0x2580, 0x3584, 0x2585, 0x2586]]⟩,
  -- tkb_tz08_0_0.json
  ⟨cs! "0118", [cs! "0001:0006"], "TKB Home", "TZ08", "Rollershutter Controller",
   [[0x2400, 0x2420, 0x2425, 0x4426, 0x242b, 0x4432, 0x2470, 0x2471, 0x2472, 0x2485, 0x2486]]⟩,
  -- tkb_tz37_0_0.json
  ⟨cs! "0118", [cs! "0311:0203"], "TKB Home", "TZ37", "Z-Wave TKB Double Relay Wall Switch",
   [[0x2400, 0x2420, 0x2425, 0x2427, 0x242b, 0x242c, 0x2459, 0x245a, 0x245e, 0x3460, 0x2470, 0x2472, 0x2473, 0x247a, 0x3485, 0x3486], [0x1420, 0x2425], [0x1420, 0x2425]]⟩,
  -- tkb_tz55d_0_0.json
  ⟨cs! "0118", [cs! "0003:0004"], "TKB Home", "TZ55D", "Dual Paddle Wall Dimmer",
   [[0x2400, 0x2520, 0x2526, 0x2527, 0x252b, 0x252c, 0x2559, 0x255a, 0x255e, 0x2570, 0x2572, 0x2573, 0x257a, 0x3585, 0x3586]]⟩,
  -- tkb_tz65d_0_0.json
  ⟨cs! "0118", [cs! "0004:0003", cs! "0808:0808"], "TKB Home", "TZ65D", "Dual Paddle Wall Dimmer",
   [[0x2400, 0x2420, 0x2526, 0x1527, 0x2570, 0x2572, 0x2585, 0x2586]]⟩,
  -- tkb_tz66d_0_0.json
  ⟨cs! "0118", [cs! "0102:1020"], "TKB Home", "TZ66D", "Dual Paddle Wall Switch",
   [[0x2400, 0x2420, 0x2525, 0x1527, 0x2570, 0x2572, 0x1573, 0x2585, 0x2586]]⟩,
  -- tkb_tz67_0_0.json
  ⟨cs! "0118", [cs! "0003:0008", cs! "0202:0611"], "TKB Home", "TZ67", "Wall Plug Dimmer",
   [[0x2400, 0x2420, 0x2526, 0x1527, 0x2570, 0x2572, 0x1575, 0x1577, 0x2586]]⟩,
  -- tkb_tz68_0_0.json
  ⟨cs! "0118", [cs! "0003:0002", cs! "0101:0103"], "TKB Home", "TZ68", "Wall Plug",
   [[0x2400, 0x2420, 0x2525, 0x2527, 0x2570, 0x2572, 0x2586]]⟩,
  -- tkb_tz69_0_0.json
  ⟨cs! "0118", [cs! "0004:0002"], "TKB Home", "TZ69", "Smart meter switch",
   [[0x2400, 0x2420, 0x2425, 0x2427, 0x4432, 0x2470, 0x2472, 0x2485, 0x2486]]⟩,
  -- tkb_tz88_0_0.json
  ⟨cs! "0118", [cs! "0001:0001", cs! "0001:0011"], "TKB Home", "TZ88", "Energy Monitoring Wall Plug",
   [[0x2400, 0x2520, 0x2525, 0x1527, 0x4532, 0x2570, 0x2572, 0x2585, 0x2586]]⟩,
  -- trane_azemt500bb32ma_0_0.json
  ⟨cs! "008B", [cs! "5452:5435"], "Trane Corporation", "AZEMT500BB32MA", "American Standard Z-Wave Programmable Thermostat",
   [[0x2400, 0x2520, 0x252b, 0x252c, 0x2531, 0x2540, 0x2542, 0x2543, 0x2544, 0x2545, 0x2570, 0x2572, 0x2573, 0x2581, 0x2585, 0x2586]]⟩,
  -- trane_tzemt400bb32maa_0_0.json
  ⟨cs! "008B", [cs! "5452:5431", cs! "5452:5433", cs! "5452:5436"], "Trane Corporation", "TZEMT400BB32MAA", "Trane Z-Wave Programmable Thermostat",
   [[0x2400, 0x2420, 0x2531, 0x2540, 0x2542, 0x2543, 0x2544, 0x2545, 0x2570, 0x2572, 0x1576, 0x2581, 0x2585, 0x2586]]⟩,
  -- trane_xl624_0_0.json
  ⟨cs! "008B", [cs! "5452:5439", cs! "5452:5443"], "Trane Corporation", "XL624", "Touchscreen Comfort Control Thermostat",
   [[0x2400, 0x2420, 0x242b, 0x6431, 0x2440, 0x3442, 0x3443, 0x3444, 0x2445, 0x2470, 0x2472, 0x2485, 0x2486, 0x248f]]⟩,
  -- trane_xr524_0_0.json
  ⟨cs! "008B", [cs! "5452:5442"], "Trane Corporation", "Trane XR524", "Touchscreen Comfort Control Thermostat",
   [[0x2400, 0x2420, 0x252b, 0x152c, 0x6531, 0x2540, 0x3542, 0x3543, 0x3544, 0x2545, 0x2570, 0x2572, 0x2573, 0x157a, 0x2581, 0x2585, 0x2586, 0x258f]]⟩,
  -- ufairy_gr105_0_0.json
  ⟨cs! "0152", [cs! "0003:0512"], "UFairy G.R. Tech", "GR-105", "Water Shutoff Valve",
   [[0x2400, 0x2420, 0x2425, 0x2427, 0x2459, 0x245a, 0x245e, 0x2472, 0x2473, 0x2485, 0x3486]]⟩,
  -- ufairy_grm202n2_0_0.json
  ⟨cs! "0152", [cs! "0500:0004"], "UFairy G.R. Tech", "GR-M-202N-2", "Inwall dual switch",
   [[0x2400, 0x2420, 0x2425, 0x2427, 0x2459, 0x245a, 0x245e, 0x3460, 0x2472, 0x2473, 0x3485, 0x3486], [0x1420, 0x2425], [0x1420, 0x2425]]⟩,
  -- ufairy_ufairy2gangwallswitch_0_0.json
  ⟨cs! "0152", [cs! "0500:0004"], "UFairy G.R. Tech", "UFairy 2gang wall switch", "Inwall dual switch",
   [[0x2400, 0x2420, 0x2425, 0x2427, 0x2459, 0x245a, 0x245e, 0x3460, 0x2472, 0x2473, 0x3485, 0x3486], [0x1420, 0x2425], [0x1420, 0x2425]]⟩,
  -- ufairy_zse02_0_0.json
  ⟨cs! "0152", [cs! "0500:0003"], "UFairy G.R. Tech", "ZSE02", "Zooz Z‑Wave Plus Motion Sensor",
   [[0x2400, 0x2420, 0x1430, 0x2559, 0x255a, 0x255e, 0x5571, 0x2572, 0x2573, 0x2580, 0x3584, 0x3585, 0x3586]]⟩,
  -- vda_dimmer3_0_0.json
  ⟨cs! "010A", [cs! "1100:4B00"], "VDA", "Vitrum III EU Dimmer", "",
   [[0x2400, 0x2420, 0x2526, 0x2527, 0x3560, 0x2572, 0x2577, 0x2585, 0x2586, 0x2587, 0x258e, 0x1591], [0x1420, 0x2426, 0x2472, 0x2486], [0x1420, 0x2426, 0x2472, 0x2486], [0x1420, 0x2426, 0x2472, 0x2486]]⟩,
  -- vision_pid11995_0_0.json
  ⟨cs! "0109", [cs! "2007:0703"], "Vision Security", "PID11995", "Monoprice ZWave On/Off Plugin",
   [[0x2400, 0x2420, 0x2525, 0x2527, 0x2572, 0x2575, 0x2586]]⟩,
  -- vision_pid15903_0_0.json
  ⟨cs! "0109", [cs! "201A:1AA4"], "Vision Security", "PID15903", "Plug In Power Monitor",
   [[0x2400, 0x2420, 0x2522, 0x2525, 0x2527, 0x4532, 0x2559, 0x255a, 0x255e, 0x2570, 0x2572, 0x2573, 0x257a, 0x3585, 0x3586, 0x1598]]⟩,
  -- vision_zd2102_0_0.json
  ⟨cs! "0109", [cs! "2001:0102", cs! "2001:0105", cs! "2001:0106"], "Vision Security", "ZD2102", "Door Window Sensor",
   [[0x2500, 0x2420, 0x2559, 0x255a, 0x2470, 0x2471, 0x2472, 0x257a, 0x2480, 0x3484, 0x2485, 0x2486, 0x1198]]⟩,
  -- vision_zd2105_0_0.json
  ⟨cs! "0109", [cs! "2022:2201"], "Vision Security", "ZD2105", "Recessed Door Window Sensor",
   [[0x2400, 0x2420, 0x1430, 0x2559, 0x255a, 0x255e, 0x4571, 0x2572, 0x2573, 0x257a, 0x2580, 0x3584, 0x2585, 0x3586]]⟩,
  -- vision_zd2201_0_0.json
  ⟨cs! "0109", [cs! "201F:1F10"], "Vision Security", "ZD2201", "Multisensor 4in1",
   [[0x2400, 0x2420, 0x6431, 0x2470, 0x2471, 0x2472, 0x2480, 0x3484, 0x2485, 0x2486]]⟩,
  -- vision_zg8101_0_0.json
  ⟨cs! "0109", [cs! "200A:0A02"], "Vision Security", "ZG8101", "Garage Door Tilt Sensor",
   [[0x2400, 0x2420, 0x2430, 0x2471, 0x2472, 0x2480, 0x3484, 0x2485, 0x2486]]⟩,
  -- vision_zl7101_0_0.json
  ⟨cs! "0109", [cs! "2008:0801"], "Vision Security", "ZL7101", "Lamp Dimmer Module",
   [[0x2526, 0x2527, 0x2572, 0x2575, 0x2586]]⟩,
  -- vision_zl7431_0_0.json
  ⟨cs! "0109", [cs! "200C:0C02", cs! "200C:0C06", cs! "2016:1616"], "Vision Security", "ZL7431", "In Wall Relay Switch",
   [[0x2400, 0x2420, 0x2525, 0x2527, 0x2570, 0x2572, 0x2585, 0x2586]]⟩,
  -- vision_zl7432_0_0.json
  ⟨cs! "0109", [cs! "2017:1717"], "Vision Security", "ZL7432", "In Wall Dual Relay Switch",
   [[0x2400, 0x2420, 0x2425, 0x2427, 0x3460, 0x2472, 0x2485, 0x2486], [0x1420, 0x2425], [0x1420, 0x2425]]⟩,
  -- vision_zm1601_0_0.json
  ⟨cs! "0109", [cs! "2005:0503", cs! "2005:0508"], "Vision Security", "ZM1601", "Battery Operated Siren",
   [[0x2400, 0x1420, 0x2425, 0x2459, 0x245a, 0x245e, 0x2470, 0x5471, 0x2472, 0x2473, 0x247a, 0x2480, 0x3485, 0x3486]]⟩,
  -- vision_zm1602_0_0.json
  ⟨cs! "0109", [cs! "2009:0903", cs! "2009:0908"], "Vision Security", "ZM1602", "AC/DC Siren",
   [[0x2400, 0x2420, 0x2425, 0x2470, 0x2472, 0x2486]]⟩,
  -- vision_zm1702_0_0.json
  ⟨cs! "0109", [cs! "2006:0620", cs! "2006:0621"], "Vision Security", "ZM1702", "Door Lock with Handle",
   [[0x2220, 0x224c, 0x324e, 0x2262, 0x2263, 0x2772, 0x2780, 0x2285, 0x2786, 0x228b, 0x2598]]⟩,
  -- vision_zp3102_0_0.json
  ⟨cs! "0109", [cs! "2002:0201", cs! "2002:0202", cs! "2002:0203", cs! "2002:0204", cs! "2002:0205"], "Vision Security", "ZP3102", "Motion Sensor",
   [[0x2400, 0x2420, 0x2430, 0x5431, 0x2470, 0x2471, 0x2472, 0x2480, 0x3484, 0x2485, 0x2486]]⟩,
  -- vision_zp3102_8_0.json
  ⟨cs! "0109", [cs! "2002:0205"], "Vision Security", "ZP3102", "Motion/Temperature Sensor",
   [[0x2400, 0x2420, 0x1430, 0x6531, 0x2559, 0x255a, 0x255e, 0x2570, 0x5571, 0x2572, 0x2573, 0x257a, 0x2580, 0x3584, 0x3585, 0x3586, 0x1598]]⟩]

/-- database/json, files 501-550 -/
def devFiles10 : List DevFile := [
  -- vision_zp3103_0_0.json
  ⟨cs! "0109", [cs! "2003:0302"], "Vision Security", "ZP3103", "Shock Sensor",
   [[0x2400, 0x2420, 0x2430, 0x2471, 0x2472, 0x2480, 0x3484, 0x2485, 0x2486]]⟩,
  -- vision_zs5101_0_0.json
  ⟨cs! "0109", [cs! "2003:0306", cs! "2003:0307"], "Vision Security", "ZS5101", "Shock Sensor",
   [[0x2400, 0x2420, 0x1430, 0x2559, 0x255a, 0x255e, 0x5571, 0x2572, 0x2573, 0x257a, 0x2580, 0x3584, 0x3585, 0x3586, 0x1598]]⟩,
  -- vision_zs6101_0_0.json
  ⟨cs! "0109", [cs! "2004:0403"], "Vision Security", "ZS6101", "Smoke Detector",
   [[0x2400, 0x2420, 0x2430, 0x2471, 0x2472, 0x2480, 0x3484, 0x2485, 0x2486]]⟩,
  -- vision_zs6301_0_0.json
  ⟨cs! "0109", [cs! "200F:0F03"], "Vision Security", "ZS6301", "CO Detector",
   [[0x2400, 0x2420, 0x2530, 0x3571, 0x2572, 0x2580, 0x3584, 0x2585, 0x2586]]⟩,
  -- vision_zse40_0_0.json
  ⟨cs! "0109", [cs! "2021:2101"], "Vision Security", "ZSE40", "Zooz 4-in-one motion/temperature/humidity/luminance sensor",
   [[0x2400, 0x2420, 0x8431, 0x2459, 0x245a, 0x345e, 0x2470, 0x2471, 0x2472, 0x2473, 0x2480, 0x3484, 0x3485, 0x3486, 0x2498]]⟩,
  -- vision_zw4101_0_0.json
  ⟨cs! "0109", [cs! "200D:0D03"], "Vision Security", "ZW4101", "Drapery controller (up/stop/down)",
   [[0x2400, 0x2420, 0x2425, 0x4426, 0x2470, 0x2472, 0x2486]]⟩,
  -- widom_ubs_1_0.json
  ⟨cs! "0149", [cs! "0012:0104"], "wiDom", "WiDom Universal Relay Switch", "WiDom Universal Relay Switch",
   [[0x2400, 0x2420, 0x2425, 0x2427, 0x2470, 0x2472, 0x2477, 0x2485, 0x2486]]⟩,
  -- widom_wds_0_0.json
  ⟨cs! "0149", [cs! "1214:0504"], "wiDom", "WDS", " Universal Double Switch",
   [[0x2400, 0x2420, 0x2425, 0x2427, 0x4432, 0x3460, 0x2470, 0x2472, 0x2485, 0x2486], [0x1420, 0x2425, 0x4432], [0x1420, 0x2425, 0x4432]]⟩,
  -- widom_wps104_0_0.json
  ⟨cs! "0149", [cs! "1214:0304"], "wiDom", "WPS104", "Energy Driven Switch",
   [[0x2400, 0x1420, 0x2425, 0x2427, 0x4431, 0x4432, 0x2459, 0x245a, 0x245e, 0x2470, 0x2472, 0x2473, 0x247a, 0x3485, 0x3486]]⟩,
  -- willis_zen20_0_0.json
  ⟨cs! "015D", [cs! "0651:F51C"], "Willis Electric Co., Ltd.", "ZEN20", "Smart Energy Power Strip",
   [[0x1020, 0x2025], [0x1020, 0x2025], [0x1020, 0x2025], [0x1020, 0x2025], [0x1020, 0x2025]]⟩,
  -- willis_zen21_0_0.json
  ⟨cs! "015D", [cs! "0111:231C"], "Willis Electric Co., Ltd.", "ZEN21", "Zooz Z-Wave On / Off Light Switch ZEN21",
   [[0x2400, 0x2420, 0x2525, 0x2527, 0x2559, 0x255a, 0x255e, 0x2570, 0x2572, 0x2573, 0x3585, 0x3586]]⟩,
  -- willis_zen23_0_0.json
  ⟨cs! "015D", [cs! "1111:1E1C"], "Willis Electric Co., Ltd.", "ZEN23", "Wall mounted switch",
   [[0x2400, 0x2420, 0x2525, 0x2527, 0x2559, 0x255a, 0x255e, 0x2570, 0x2572, 0x2573, 0x3585, 0x3586]]⟩,
  -- willis_zen24_0_0.json
  ⟨cs! "015D", [cs! "0111:1F1C"], "Willis Electric Co., Ltd.", "Zen24", "Toggle Dimmer",
   [[0x2400, 0x2420, 0x2526, 0x2527, 0x2559, 0x255a, 0x255e, 0x2570, 0x2572, 0x2573, 0x3585, 0x3586]]⟩,
  -- willis_zw37_0_0.json
  ⟨cs! "015D", [cs! "0221:251C"], "Willis Electric Co., Ltd.", "ZW37", "show home, Inovelli 2 channel smart plug",
   [[0x2400, 0x1420, 0x2425, 0x2427, 0x2459, 0x245a, 0x245e, 0x3460, 0x2472, 0x2473, 0x3485, 0x3486, 0x448e], [0x1420, 0x2425, 0x2427, 0x2459, 0x245e, 0x3485, 0x3486, 0x448e], [0x1420, 0x2425, 0x2459, 0x245e]]⟩,
  -- wintop_1122r_1_4.json
  ⟨cs! "0097", [cs! "1122:5501"], "Wintop", "iModuleDouble", "Dual In-wall Switch",
   [[0x2500, 0x2520, 0x2525, 0x2527, 0x252b, 0x252c, 0x3560, 0x2572, 0x2586], [0x2400, 0x1420, 0x2427], [0x2400, 0x1420, 0x2427]]⟩,
  -- wintop_dhsitswpdhs_0_0.json
  ⟨cs! "0097", [cs! "6943:5501"], "Wintop", "PlugInSwitch", "PlugIn Switch with power monitoring",
   [[0x2400, 0x2420, 0x2525, 0x2527, 0x2531, 0x3532, 0x2570, 0x2572, 0x2573, 0x2575, 0x2585, 0x2586]]⟩,
  -- wintop_dhszwdmiw01_0_0.json
  ⟨cs! "0097", [cs! "1200:5502"], "Wintop", "DHSZWDMIW01", "DHS Z-Wave Micro Dimmer",
   [[0x2400, 0x2420, 0x2426, 0x2427, 0x242b, 0x2470, 0x2472, 0x2485, 0x2486]]⟩,
  -- wintop_easyplug_0_0.json
  ⟨cs! "0097", [cs! "6943:4501"], "Wintop", "EasyPlug", "Wall Plug",
   [[0x2400, 0x2420, 0x2525, 0x2527, 0x2531, 0x3532, 0x2570, 0x2572, 0x2573, 0x2575, 0x2585, 0x2586]]⟩,
  -- wintop_ishutter_0_0.json
  ⟨cs! "0097", [cs! "0024:0045"], "Wintop", "iShutter", "Wintop iShutter",
   [[], [0x2027], [0x2027]]⟩,
  -- wintop_itemp_0_0.json
  ⟨cs! "0097", [cs! "1182:4501", cs! "1188:4501"], "Wintop", "ITEMP", "Contact and temperature sensor",
   [[0x2400, 0x2420, 0x2530, 0x2531, 0x2570, 0x2571, 0x2572, 0x2580, 0x2584, 0x2585, 0x2586]]⟩,
  -- wintop_le120_0_0.json
  ⟨cs! "0097", [cs! "6941:5501"], "Wintop", "LE120", "Appliance Module",
   [[0x2400, 0x2420, 0x2525, 0x2527, 0x2572]]⟩,
  -- wintop_multisensor_0_0.json
  ⟨cs! "0097", [cs! "1180:5501"], "Wintop", "Multisensor", "Wintop Multi-sensor",
   [[0x2400, 0x2420, 0x2530, 0x2531, 0x3560, 0x2570, 0x2571, 0x2572, 0x2580, 0x2584, 0x2585, 0x2586], [0x1420, 0x2431], [0x1420, 0x2431]]⟩,
  -- wintop_wtrfid_0_0.json
  ⟨cs! "0097", [cs! "6131:4501"], "Wintop", "WTRFID", "Mini Keypad RFID/Z-Wave",
   [[0x2400, 0x2420, 0x2525, 0x2563, 0x2570, 0x3571, 0x2572, 0x2476, 0x2580, 0x2584, 0x2585, 0x2586]]⟩,
  -- yale_ykfcon_0_0.json
  ⟨cs! "0129", [cs! "0006:0000"], "ASSA ABLOY", "YKFCON", "Smart Living Keyfree Smart Lock",
   [[0x2400, 0x2420, 0x234c, 0x434e, 0x2262, 0x2263, 0x2270, 0x2271, 0x2572, 0x3275, 0x2276, 0x2280, 0x2285, 0x2586, 0x328a, 0x228b, 0x2798]]⟩,
  -- yale_yrd110_0_0.json
  ⟨cs! "0129", [cs! "0004:0800"], "Yale Locks", "YRD110", "Yale button deadbolt without keyway",
   [[0x2400, 0x2420, 0x2472, 0x2486]]⟩,
  -- yale_yrd120_0_0.json
  ⟨cs! "0129", [cs! "0002:0800"], "ASSA ABLOY", "YRD120", "Touchscreen deadbolt without key",
   [[0x2400, 0x2220, 0x224c, 0x224e, 0x2262, 0x2263, 0x2670, 0x2671, 0x2772, 0x2675, 0x2480, 0x2486, 0x228a, 0x228b, 0x2798]]⟩,
  -- yale_yrd210_0_0.json
  ⟨cs! "0129", [cs! "0004:0000", cs! "0004:AA00"], "ASSA ABLOY", "YRD210", "Push Button Deadbolt",
   [[0x2400, 0x2420, 0x2462, 0x2463, 0x2470, 0x2471, 0x2472, 0x2475, 0x2476, 0x2480, 0x2485, 0x2486, 0x2498]]⟩,
  -- yale_yrd220_0_0.json
  ⟨cs! "0129", [cs! "0002:0000", cs! "0002:0209", cs! "0002:AA00", cs! "0002:FFFF"], "ASSA ABLOY", "YRD220", "Yale Real Living Touchscreen Deadbolt",
   [[0x2600, 0x2420, 0x124c, 0x124e, 0x2662, 0x2663, 0x2670, 0x2671, 0x2772, 0x2675, 0x2476, 0x2680, 0x2685, 0x2786, 0x128a, 0x128b, 0x2598]]⟩,
  -- yale_yrl220_0_0.json
  ⟨cs! "0129", [cs! "0001:0409", cs! "842A:3CAC"], "ASSA ABLOY", "YRL220", "Yale Real Living Touchscreen Lever Lock",
   [[0x2600, 0x2420, 0x124c, 0x124e, 0x2662, 0x2663, 0x2670, 0x1671, 0x2772, 0x2675, 0x2476, 0x2680, 0x2685, 0x2786, 0x128a, 0x128b, 0x2598]]⟩,
  -- zipato_rgbwe27zw_0_0.json
  ⟨cs! "0131", [cs! "0002:0002"], "Zipato", "RGBWE27ZW", "RGBW bulb",
   [[0x2400, 0x2420, 0x3526, 0x2533, 0x1559, 0x155a, 0x155e, 0x2570, 0x2572, 0x1573, 0x157a, 0x2585, 0x2586]]⟩,
  -- zooz_zen06_0_0.json
  ⟨cs! "027A", [cs! "0101:000A"], "Zooz", "ZEN06", "Smart Plug with 2 USB ports",
   [[0x2400, 0x2420, 0x2425, 0x2427, 0x242b, 0x4432, 0x2470, 0x2472, 0x2485, 0x2486]]⟩,
  -- zooz_zen07_0_0.json
  ⟨cs! "027A", [cs! "0003:0087"], "Zooz", "ZEN07", "Zooz Z-Wave Plus Mini Plug On / Off Module ZEN07",
   [[0x2400, 0x2520, 0x2525, 0x2527, 0x4532, 0x2559, 0x255a, 0x255e, 0x2570, 0x5571, 0x2572, 0x2573, 0x3585, 0x3586]]⟩,
  -- zooz_zoozzse08_0_0.json
  ⟨cs! "027A", [cs! "0003:0082"], "Zooz", "ZSE08", "Zooz Z-Wave Plus Contact Sensor",
   [[0x2400, 0x2420, 0x3530, 0x2559, 0x255a, 0x255e, 0x2570, 0x5571, 0x2572, 0x2573, 0x2580, 0x3584, 0x3585, 0x3586]]⟩,
  -- zooz_zse09_0_0.json
  ⟨cs! "027A", [cs! "0083:0003"], "Zooz", "ZSE09", "Zooz Z-Wave Motion and Light Mini Sensor",
   [[0x1420, 0x3430, 0x8431, 0x1459, 0x145a, 0x345e, 0x1470, 0x3472, 0x1473, 0x1480, 0x3484, 0x3485, 0x3486]]⟩,
  -- zooz_zse30_0_0.json
  ⟨cs! "027A", [cs! "0003:0000", cs! "0003:0085"], "Zooz", "ZSE30", "Water Sensor",
   [[0x2400, 0x2420, 0x3530, 0x2559, 0x255a, 0x255e, 0x2570, 0x9571, 0x2572, 0x2573, 0x2580, 0x3584, 0x3585, 0x3586]]⟩,
  -- zooz_zse40_0_0.json
  ⟨cs! "027A", [cs! "2021:2101"], "Zooz", "ZSE40", "4-in-1 Sensor",
   [[0x2400, 0x2420, 0x1430, 0x8531, 0x2559, 0x255a, 0x255e, 0x2570, 0x5571, 0x2572, 0x2573, 0x257a, 0x2580, 0x3584, 0x3585, 0x3586]]⟩,
  -- zwaveme_06436_0_0.json
  ⟨cs! "0115", [cs! "1000:0003"], "Z-Wave.Me", "06436", "Insert blind control",
   [[0x2400, 0x2420, 0x2525, 0x2526, 0x2527, 0x2570, 0x2572, 0x2575, 0x2582, 0x2585, 0x2586, 0x2587]]⟩,
  -- zwaveme_kfob_0_0.json
  ⟨cs! "0115", [cs! "0100:0001", cs! "0100:0002"], "Z-Wave.Me", "KFOB", "4 button keyfob",
   [[0x2400, 0x2420, 0x245b, 0x2470, 0x2472, 0x2480, 0x3484, 0x2485, 0x2486, 0x248f]]⟩,
  -- zwaveme_kfobc_0_0.json
  ⟨cs! "0115", [cs! "0000:0000"], "Z-Wave.Me", "KFOB-C", "Keyfob",
   [[0x2400, 0x2420, 0x245b, 0x2470, 0x2472, 0x2480, 0x3484, 0x2485, 0x2486, 0x248f]]⟩,
  -- zwaveme_wallcs_0_0.json
  ⟨cs! "0115", [cs! "0100:0101"], "Z-Wave.Me", "WALLC-S", "Wall Controller",
   [[0x2400, 0x2420, 0x1426, 0x142b, 0x142d, 0x145b, 0x2470, 0x2472, 0x2480, 0x3484, 0x2485, 0x2486, 0x248f]]⟩,
  -- zwaveme_wcd2_0_0.json
  ⟨cs! "0115", [cs! "0100:0004"], "Z-Wave.Me", "WCD2", "Double Paddle Wall Controller",
   [[0x2400, 0x2420, 0x142b, 0x2470, 0x2472, 0x2480, 0x3484, 0x2485, 0x2486]]⟩,
  -- zwaveme_zme05431_0_0.json
  ⟨cs! "0115", [cs! "1000:0001"], "Z-Wave.Me", "ZME_05431", "Flush mountable switch",
   [[0x2400, 0x2520, 0x2525, 0x1527, 0x252b, 0x152c, 0x152d, 0x2570, 0x2572, 0x1575, 0x1577, 0x2585, 0x2586, 0x1587, 0x158e]]⟩,
  -- zwaveme_zme05433_0_0.json
  ⟨cs! "0115", [cs! "1000:0002", cs! "1000:0009"], "Z-Wave.Me", "ZME_05433", "Zwave.Me Dimmer Set Everlux",
   [[0x2400, 0x2520, 0x3526, 0x2527, 0x252b, 0x152c, 0x152d, 0x2570, 0x2572, 0x2575, 0x2577, 0x2585, 0x2586, 0x2587, 0x158e]]⟩,
  -- zwaveme_zme05459_0_0.json
  ⟨cs! "0115", [cs! "1000:0003"], "Z-Wave.Me", "ZME_05459", "Blinds controller",
   [[0x2400, 0x2420, 0x2425, 0x4426, 0x2427, 0x242b, 0x1460, 0x2470, 0x2472, 0x2477, 0x2485, 0x2486, 0x2487]]⟩,
  -- zwaveme_zme05461_0_0.json
  ⟨cs! "0115", [cs! "1000:0100"], "Z-Wave.Me", "ZME_05461", "Double switch",
   [[0x2400, 0x2520, 0x2525, 0x2527, 0x4532, 0x3560, 0x2570, 0x2572, 0x2575, 0x3585, 0x2586, 0x358e], [0x1420, 0x2425, 0x4432], [0x1420, 0x2425, 0x4432]]⟩,
  -- zwaveme_zme06437_0_0.json
  ⟨cs! "0115", [cs! "1000:0200"], "Z-Wave.Me", "ZME_06437", "Wall Plug Switch",
   [[0x2400, 0x2520, 0x2525, 0x2527, 0x4532, 0x2559, 0x255a, 0x255e, 0x2570, 0x2572, 0x1473, 0x2575, 0x2585, 0x2586, 0x2587, 0x258e]]⟩,
  -- zwaveme_zme06443_0_0.json
  ⟨cs! "0115", [cs! "0400:0004", cs! "1000:0004"], "Z-Wave.Me", "ZME_06443", "Single Paddle Wall Controller",
   [[0x2400, 0x2420, 0x142b, 0x2570, 0x2572, 0x2575, 0x1577, 0x2580, 0x3584, 0x2585, 0x2586, 0x158e]]⟩,
  -- zwaveme_zmeft_0_0.json
  ⟨cs! "0115", [cs! "0024:0001"], "Z-Wave.Me", "ZME_FT", "Floor Thermostat",
   [[0x2400, 0x2520, 0x5531, 0x2540, 0x2543, 0x2570, 0x2572, 0x2575, 0x2577, 0x3585, 0x2586]]⟩,
  -- zwaveme_zmekfobs_0_0.json
  ⟨cs! "0115", [cs! "0100:0101", cs! "0100:0102", cs! "0100:0103"], "Z-Wave.Me", "ZME_KFOB-S", "Secure 4 Button Key Chain Controller",
   [[0x2400, 0x1420, 0x242d, 0x2459, 0x245a, 0x245b, 0x245e, 0x2470, 0x2472, 0x2473, 0x2480, 0x3484, 0x3485, 0x3486, 0x248f]]⟩,
  -- zwaveme_zmerc2_0_0.json
  ⟨cs! "0115", [cs! "1000:0300"], "Z-Wave.Me", "ZME_RC2", "Z-Wave Remote Control+",
   [[0x2400, 0x2420, 0x2526, 0x252b, 0x2570, 0x2572, 0x2580, 0x3584, 0x2585, 0x2586, 0x358e]]⟩]

/-- database/json, files 551-553 -/
def devFiles11 : List DevFile := [
  -- zwaveme_zuno_1_0.json
  ⟨cs! "0115", [cs! "0110:0001"], "Z-Wave.Me", "ZUNO1S1D1AI1DI", "ZUNO1S1D1AI1DI",
   [[0x2400, 0x2420, 0x2425, 0x2459, 0x245a, 0x245e, 0x3460, 0x2470, 0x2472, 0x2473, 0x247a, 0x3485, 0x3486, 0x448e], [0x1420, 0x2425], [0x1420, 0x1426], [0x1420, 0x1431], [0x1420, 0x1430]]⟩,
  -- zwaveme_zweather_0_0.json
  ⟨cs! "0115", [cs! "0100:0400"], "Z-Wave.Me", "Z-Weather", "Z-Wave weather interface",
   [[0x2400, 0x2420, 0x1430, 0x7531, 0x4532, 0x2559, 0x255a, 0x255e, 0x2570, 0x2572, 0x2573, 0x2580, 0x3584, 0x2585, 0x2586, 0x2589, 0x158e, 0x258f, 0x159b]]⟩,
  -- zyxel_st812_0_0.json
  ⟨cs! "0135", [cs! "000B:0001"], "ZyXEL", "ST812", "Flood sensor",
   [[0x2400, 0x2520, 0x2570, 0x2572, 0x2580, 0x3584, 0x2585, 0x2586, 0x259c]]⟩]

end Verif.Model.Tables
