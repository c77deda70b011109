import Verif.Model.Tables.FileRow

/-
Generated by tools/gen_tables.py from the files of /repo/database/json in the order of their names: the
fields the generator of devices.go reads, without the parameters.
-/

namespace Verif.Model.Tables

/-- database/json, files 201-250 -/
def devFiles4 : List DevFile := [
  -- fibaro_fgwp102_0_0.json
  ⟨cs! "010F", [cs! "0602:1001"], "Fibargroup", "FGWP102", "Metered Wall Plug Switch",
   [[0x2400, 0x2420, 0x2422, 0x2425, 0x6431, 0x3432, 0x2456, 0x2470, 0x2471, 0x2472, 0x2485, 0x2486]]⟩,
  -- fibaro_fgwp102_2_1.json
  ⟨cs! "010F", [cs! "0600:1000"], "Fibargroup", "FGWP102", "Metered Wall Plug Switch",
   [[0x2400, 0x2420, 0x2522, 0x2425, 0x6531, 0x3532, 0x2556, 0x2559, 0x255a, 0x255e, 0x2570, 0x2571, 0x2572, 0x2573, 0x257a, 0x2585, 0x2586, 0x458e]]⟩,
  -- fibaro_fgwp102_3_0.json
  ⟨cs! "010F", [cs! "0602:1001"], "Fibargroup", "FGWP102", "Metered Wall Plug Switch",
   [[0x2400, 0x2420, 0x2522, 0x2425, 0x6531, 0x3532, 0x2556, 0x2559, 0x255a, 0x255e, 0x2570, 0x6571, 0x2572, 0x2573, 0x257a, 0x3585, 0x3586, 0x458e, 0x1598]]⟩,
  -- fibaro_fgwp102_3_2.json
  ⟨cs! "010F", [cs! "0602:1001"], "Fibargroup", "FGWP102", "Metered Wall Plug Switch",
   [[0x2400, 0x2420, 0x2522, 0x2425, 0x6531, 0x3532, 0x2556, 0x2559, 0x255a, 0x255e, 0x2570, 0x6571, 0x2572, 0x2573, 0x257a, 0x3585, 0x3586, 0x458e, 0x1598]]⟩,
  -- fibaro_fgwpe_0_0.json
  ⟨cs! "010F", [cs! "0600:1000"], "Fibaro System", "FGWPE", "Metered Wall Plug Switch",
   [[0x2400, 0x2420, 0x2425, 0x3431, 0x3432, 0x2470, 0x2472, 0x2485, 0x2486]]⟩,
  -- fibaro_fibarodoubleswitch2_0_0.json
  ⟨cs! "010F", [cs! "0203:1000"], "Fibaro System", "FGS223", "Double Switch 2 ",
   [[0x2400, 0x2420, 0x2422, 0x2425, 0x4432, 0x2456, 0x245b, 0x3460, 0x2470, 0x2471, 0x2472, 0x2485, 0x2486], [0x1420, 0x2425, 0x4432, 0x2485, 0x2486], [0x1420, 0x2425, 0x4432, 0x2485, 0x2486]]⟩,
  -- forest_forestshuttlesl_0_0.json
  ⟨cs! "0207", [cs! "0027:0100"], "Forest Group Nederland B.V", "Forest Shuttle S/L, Forest Group NL", "Drapery hardware",
   [[0x2400, 0x2420, 0x2525, 0x4526, 0x2527, 0x2559, 0x255a, 0x255e, 0x2572, 0x2573, 0x257a, 0x3585, 0x3586]]⟩,
  -- fortrezz_mimolite_0_0.json
  ⟨cs! "0084", [cs! "0451:010E", cs! "0453:010E", cs! "0453:010F", cs! "0453:0110", cs! "0453:0111"], "FortrezZ LLC", "MIMOlite", "Digital or Analog Voltage input and/or Dry Contact\t\t\t\tRelay\t\t\t",
   [[0x2400, 0x2420, 0x2425, 0x2430, 0x2431, 0x2470, 0x2471, 0x2472, 0x2485, 0x2486]]⟩,
  -- fortrezz_ssa1_0_0.json
  ⟨cs! "0084", [cs! "0311:010B", cs! "0313:0108", cs! "0313:010B"], "FortrezZ LLC", "SSA1/SSA2", "Siren and Strobe Alarm",
   [[0x2400, 0x2420, 0x2522, 0x2526, 0x2570, 0x3571, 0x2572, 0x2586]]⟩,
  -- fortrezz_wv01_0_0.json
  ⟨cs! "0084", [cs! "0213:0215"], "FortrezZ LLC", "WV-01", "Wireless Z-Wave Water Valve",
   [[0x2400, 0x2420, 0x2422, 0x2425, 0x2470, 0x2471, 0x2472, 0x2486]]⟩,
  -- fortrezz_wwa02_0_0.json
  ⟨cs! "0084", [cs! "0061:010C", cs! "0063:010C"], "FortrezZ LLC", "WWA-02", "Wireless Water and Temperature Alarm",
   [[0x2400, 0x2420, 0x2431, 0x2470, 0x2471, 0x2472, 0x2480, 0x3484, 0x2485, 0x2486]]⟩,
  -- ge_12718_0_0.json
  ⟨cs! "0063", [cs! "5044:3031"], "Jasco Products", "12718", "Smart Dimmer",
   [[0x2400, 0x2420, 0x2526, 0x2527, 0x2570, 0x2572, 0x2573, 0x2577, 0x2586]]⟩,
  -- ge_12727_0_0.json
  ⟨cs! "0063", [cs! "4952:3033"], "Jasco Products", "12727", "GE 12727 Z-Wave Wireless Lighting Control Smart Toggle Switch",
   [[0x2400, 0x2420, 0x2425, 0x2427, 0x2470, 0x2472, 0x2477, 0x2486]]⟩,
  -- ge_12729_0_0.json
  ⟨cs! "0063", [cs! "4944:3033"], "Jasco Products", "12729", "In-Wall Smart Dimmer",
   [[0x2400, 0x2420, 0x2526, 0x2527, 0x2570, 0x2572, 0x2573, 0x2577, 0x2586]]⟩,
  -- ge_35931_0_0.json
  ⟨cs! "0063", [cs! "4C42:3031"], "Jasco Products", "35931", "Enbrighten 60W Dimmable Light Bulb",
   [[0x2400, 0x2420, 0x2526, 0x2527, 0x2559, 0x255a, 0x255e, 0x2570, 0x2572, 0x2573, 0x257a, 0x3585, 0x3586]]⟩,
  -- ge_45603_0_0.json
  ⟨cs! "0063", [cs! "5052:3031", cs! "5250:3030"], "Jasco Products", "45603", "Fluorescent Light & Appliance Module",
   [[0x2400, 0x2420, 0x2425, 0x2472, 0x2475, 0x2486]]⟩,
  -- ge_45604_0_0.json
  ⟨cs! "0063", [cs! "5250:3130", cs! "4F50:3031"], "Jasco Products", "45604", "Outdoor Lighting Control Module",
   [[0x2400, 0x2420, 0x2525, 0x2527, 0x2572, 0x2573, 0x2575, 0x2577, 0x2586]]⟩,
  -- ge_45605_0_0.json
  ⟨cs! "0063", [cs! "5252:3530"], "Jasco Products", "45605", "Duplex receptacle",
   [[0x2400, 0x2420, 0x2525, 0x2527, 0x2570, 0x2572, 0x2573, 0x2575, 0x2577, 0x2586]]⟩,
  -- ge_45606_0_0.json
  ⟨cs! "0063", [cs! "4457:3230"], "Jasco Products", "45606", "2-Way Dimmer Switch",
   [[0x2400, 0x2420, 0x2426, 0x2427, 0x2470, 0x2472, 0x2486]]⟩,
  -- ge_45607_0_0.json
  ⟨cs! "0063", [cs! "4457:3033"], "Jasco Products", "45607", "2-Way Dimmer Switch",
   [[0x2400, 0x2420, 0x2526, 0x2527, 0x2570, 0x2572, 0x2573, 0x2586]]⟩,
  -- ge_45609_0_0.json
  ⟨cs! "0063", [cs! "5257:3533", cs! "6363:3533"], "Jasco Products", "45609", "On/Off Relay Switch",
   [[0x2400, 0x2420, 0x2425, 0x2427, 0x2470, 0x2472, 0x2477, 0x2486]]⟩,
  -- ge_enbrighten60wbulb_0_0.json
  ⟨cs! "0063", [cs! "4C42:3031"], "Jasco Products", "Enbrighten 60W Bulb", "Dimmable light bulb",
   [[0x2400, 0x2420, 0x2526, 0x2527, 0x2559, 0x255a, 0x255e, 0x2570, 0x2572, 0x2573, 0x257a, 0x3585, 0x3586]]⟩,
  -- ge_ge12725_0_0.json
  ⟨cs! "0063", [cs! "4944:3032"], "Jasco Products", "GE 12725", "In-Wall Dimmer",
   [[0x2400, 0x1420, 0x2426, 0x2427, 0x2470, 0x2472, 0x2486]]⟩,
  -- ge_ge14291_0_0.json
  ⟨cs! "0063", [cs! "4952:3036"], "Jasco Products", "GE 14291 (ZW4005)", "In-Wall Paddle Switch",
   [[0x2400, 0x2420, 0x2525, 0x2527, 0x252b, 0x252c, 0x2556, 0x2559, 0x255a, 0x255e, 0x2570, 0x2572, 0x2573, 0x257a, 0x3585, 0x3586]]⟩,
  -- ge_ge14291zw4005_0_0.json
  ⟨cs! "0063", [cs! "4952:3036"], "Jasco Products", "GE 14291 (ZW4005)", "In-Wall Paddle Switch",
   [[0x2400, 0x2420, 0x2525, 0x2527, 0x252b, 0x252c, 0x2556, 0x2559, 0x255a, 0x255e, 0x2570, 0x2572, 0x2573, 0x257a, 0x3585, 0x3586]]⟩,
  -- ge_ge14294_0_0.json
  ⟨cs! "0063", [cs! "4944:3038"], "Jasco Products", "GE 14294 (ZW3005)", "In-Wall Dimmer Switch",
   [[0x2400, 0x2420, 0x2526, 0x2527, 0x2556, 0x2559, 0x255a, 0x255e, 0x2570, 0x2572, 0x2573, 0x257a, 0x3585, 0x3586]]⟩,
  -- ge_gejasco14321_0_0.json
  ⟨cs! "0063", [cs! "4944:3135"], "Jasco Products", "GE/Jasco 14321", "In-Wall Dimmer",
   [[0x2400, 0x2420, 0x3526, 0x2527, 0x252b, 0x252c, 0x2556, 0x2559, 0x255a, 0x255e, 0x2570, 0x2572, 0x2573, 0x257a, 0x3585, 0x3586]]⟩,
  -- ge_gepluginsmartswitch_0_0.json
  ⟨cs! "0063", [cs! "5052:3033"], "Jasco Products", "GE Plug in Smart Switch", "GE Plug in Smart Switch Zwave Plus",
   [[0x2400, 0x2420, 0x2525, 0x2527, 0x2556, 0x2559, 0x255a, 0x255e, 0x2570, 0x2572, 0x2573, 0x257a, 0x3585, 0x3586]]⟩,
  -- ge_jascosmartdoorsensor_0_0.json
  ⟨cs! "0063", [cs! "4953:3032"], "Jasco Products", "Jasco Smart Door Sensor", "Hinge Pin Smart Door Sensor",
   [[0x2400, 0x2420, 0x3530, 0x2559, 0x255a, 0x255e, 0x2570, 0x5571, 0x2572, 0x2573, 0x257a, 0x2580, 0x3584, 0x3585, 0x3586]]⟩,
  -- ge_smartdoorsensor_0_0.json
  ⟨cs! "0063", [cs! "4953:3032"], "Jasco Products", "Smart Door Sensor", "Hinge Pin Smart Door Sensor",
   [[0x2400, 0x2420, 0x3530, 0x2559, 0x255a, 0x255e, 0x2570, 0x5571, 0x2572, 0x2573, 0x257a, 0x2580, 0x3584, 0x3585, 0x3586]]⟩,
  -- ge_zw1001_0_0.json
  ⟨cs! "0063", [cs! "4952:3031"], "Jasco Products", "ZW1001", "Smart Outlet",
   [[0x2400, 0x2420, 0x2425, 0x2427, 0x2470, 0x2472, 0x2477, 0x2486]]⟩,
  -- ge_zw3003_0_0.json
  ⟨cs! "0063", [cs! "4944:3031"], "Jasco Products", "ZW3003, GE 12724", "In-Wall Dimmer",
   [[0x2400, 0x2420, 0x2426, 0x2427, 0x2470, 0x2472, 0x2477, 0x2486]]⟩,
  -- ge_zw3101_0_0.json
  ⟨cs! "0063", [cs! "4450:3030"], "Jasco Products", "ZW3101", "Lamp Module",
   [[0x2400, 0x2420, 0x2526, 0x2527, 0x2570, 0x2572, 0x2573, 0x2577, 0x2586]]⟩,
  -- ge_zw4002_0_0.json
  ⟨cs! "0063", [cs! "4944:3034", cs! "4944:3131"], "Jasco Products", "ZW4002", "In-Wall Smart Fan Control",
   [[0x2400, 0x2420, 0x2426, 0x2427, 0x2470, 0x2472, 0x2486]]⟩,
  -- ge_zw4005_0_0.json
  ⟨cs! "0063", [cs! "4952:3032"], "Jasco Products", "ZW4005, 12722", "On/Off Relay Switch",
   [[0x2400, 0x2420, 0x2425, 0x2427, 0x2470, 0x2472, 0x2477, 0x2486]]⟩,
  -- ge_zw4101_0_0.json
  ⟨cs! "0063", [cs! "6363:3030"], "Jasco Products", "ZW4101", "Fluorescent Light & Appliance Module",
   [[0x2400, 0x2420, 0x2525, 0x2527, 0x2572, 0x2573, 0x2575, 0x2577, 0x2586]]⟩,
  -- ge_zw6302_0_0.json
  ⟨cs! "0063", [cs! "4953:3133"], "Jasco Products", "ZW6302", "Portable Smart Motion Sensor",
   [[0x2400, 0x2420, 0x3430, 0x2470, 0x2471, 0x2472, 0x2480, 0x3484, 0x2485, 0x2486]]⟩,
  -- goodway_td1311_0_0.json
  ⟨cs! "0068", [cs! "0000:0010"], "Good Way Technology Co., Ltd", "TD1311", "In wall Power Monitor Switch",
   [[0x2400, 0x2420, 0x1425, 0x2427, 0x3460, 0x2470, 0x2472, 0x247a, 0x2486], [0x1420, 0x1425, 0x1432], [0x1420, 0x1425, 0x1432]]⟩,
  -- graber_csz1_0_0.json
  ⟨cs! "026E", [cs! "4353:5A31"], "Graber", "CSZ1", "Cellular Shade Radio Z-Wave",
   [[0x2425, 0x4426, 0x2459, 0x245a, 0x245e, 0x2472, 0x2473, 0x247a, 0x2480, 0x3485, 0x3486]]⟩,
  -- graber_rsz1_0_0.json
  ⟨cs! "026E", [cs! "5253:5A31"], "Graber", "RSZ1", "Somfy Motorized Shade",
   [[0x2400, 0x2420, 0x2425, 0x4426, 0x2472, 0x2480, 0x2485, 0x2486]]⟩,
  -- greenwave_gwpn1_3_0.json
  ⟨cs! "0099", [cs! "0002:0002"], "GreenWave Reality Inc.", "GWPN1", "Single-socket PowerNode",
   [[0x2400, 0x2420, 0x2425, 0x1427, 0x3432, 0x2456, 0x3460, 0x2470, 0x2471, 0x2472, 0x2575, 0x2485, 0x2486, 0x1587]]⟩,
  -- greenwave_gwpn5_0_0.json
  ⟨cs! "0099", [cs! "0003:0003"], "GreenWave Reality Inc.", "GWPN5", "Multi-socket PowerNode (5-plug)",
   [[0x2400, 0x2420, 0x2425, 0x1427, 0x3432, 0x2456, 0x3460, 0x2470, 0x2471, 0x2472, 0x2485, 0x2486], [0x1420, 0x2425, 0x3432], [0x1420, 0x2425, 0x3432], [0x1420, 0x2425, 0x3432], [0x1420, 0x2425, 0x3432], [0x1420, 0x2425, 0x3432]]⟩,
  -- greenwave_gwpn6_0_0.json
  ⟨cs! "0099", [cs! "0003:0004"], "GreenWave Reality Inc.", "GWPN6", "Multi-socket PowerNode (6-plug)",
   [[0x2400, 0x2420, 0x2425, 0x1427, 0x3432, 0x2456, 0x3460, 0x2470, 0x2471, 0x2472, 0x2485, 0x2486], [0x1420, 0x2425, 0x3432], [0x1420, 0x2425, 0x3432], [0x1420, 0x2425, 0x3432], [0x1420, 0x2425, 0x3432], [0x1420, 0x2425, 0x3432], [0x1420, 0x2425, 0x3432]]⟩,
  -- hank_hkzws001_0_0.json
  ⟨cs! "0208", [cs! "0101:0005"], "Hank", "HKZW-SO01", "Smart Plug and Energy Meter with two USB ports",
   [[0x2400, 0x2420, 0x2525, 0x1426, 0x2527, 0x252b, 0x252c, 0x4532, 0x2559, 0x255a, 0x255e, 0x2570, 0x2572, 0x2573, 0x257a, 0x3585, 0x3586]]⟩,
  -- hank_scn01_0_0.json
  ⟨cs! "0208", [cs! "0200:0009"], "Hank", "SCN01", "Scene Controller",
   [[0x2400, 0x2420, 0x2559, 0x255a, 0x355b, 0x255e, 0x2570, 0x2572, 0x2573, 0x257a, 0x2580, 0x3584, 0x3585, 0x3586]]⟩,
  -- hank_so05_0_0.json
  ⟨cs! "0208", [cs! "0100:000A"], "Hank", "SO05", "Smart Plug",
   [[0x2400, 0x2420, 0x2525, 0x2527, 0x252b, 0x252c, 0x4532, 0x2559, 0x255a, 0x255e, 0x2570, 0x2572, 0x2573, 0x257a, 0x3585, 0x3586]]⟩,
  -- heiman_hs1ds_0_0.json
  ⟨cs! "0260", [cs! "0168:0168"], "Heiman Technology Co. Ltd", "HS1DS", "Door/Window Contact",
   [[0x2400, 0x2420, 0x3530, 0x2559, 0x255a, 0x255e, 0x5571, 0x2572, 0x2573, 0x2580, 0x3584, 0x3585, 0x3586]]⟩,
  -- heiman_hs1sa_0_0.json
  ⟨cs! "0260", [cs! "8002:1000"], "Heiman Technology Co. Ltd", "HS1SA", "Smoke Detector",
   [[0x2400, 0x2420, 0x3530, 0x2559, 0x255a, 0x255e, 0x5571, 0x2572, 0x2573, 0x2580, 0x3584, 0x3585, 0x3586]]⟩,
  -- heiman_hs2skz_0_0.json
  ⟨cs! "0260", [cs! "8006:1000"], "Heiman Technology Co. Ltd", "HS2SK-Z", "In-Wall Switch Module",
   [[0x2400, 0x2420, 0x2525, 0x2527, 0x4532, 0x2559, 0x255a, 0x255e, 0x2572, 0x2573, 0x3585, 0x3586]]⟩,
  -- hogar_htp4s1fb_0_0.json
  ⟨cs! "0293", [cs! "0004:0000"], "Hogar Controls", "HTP-4S1-FB", "Four Touch Panel and Power Socket",
   [[0x2400, 0x2520, 0x2425, 0x2427, 0x2460, 0x2470, 0x2472, 0x2485, 0x2486], [0x2420, 0x2425], [0x2400, 0x2420, 0x2425], [0x2420, 0x2425], [0x2420, 0x1425]]⟩]

/-- database/json, files 251-300 -/
def devFiles5 : List DevFile := [
  -- hogar_htp4s1fb_2_2.json
  ⟨cs! "0293", [cs! "0003:0014"], "Hogar Controls", "HTP-4S1-FB", "Four Touch Panel and Power Socket",
   [[0x2400, 0x2520, 0x2425, 0x2427, 0x2460, 0x2470, 0x2472, 0x2485, 0x2486], [0x2420, 0x2425], [0x2400, 0x2420, 0x2425], [0x2420, 0x2425], [0x2420, 0x1425]]⟩,
  -- homeseer_ezmotionexpress_0_0.json
  ⟨cs! "001E", [cs! "0002:0002", cs! "0002:0001"], "Express Controls", "EZMotion Express", "Wireless 3-in-1 Sensor",
   [[0x2400, 0x2420, 0x6531, 0x2570, 0x2572, 0x2580, 0x3584, 0x2585, 0x2586], [0x1060, 0x1070, 0x1072, 0x1077, 0x1080, 0x1084, 0x1085, 0x1086], [0x1031, 0x1060, 0x1070, 0x1072, 0x1077, 0x1080, 0x1084, 0x1085, 0x1086], [0x1031, 0x1060, 0x1070, 0x1072, 0x1077, 0x1080, 0x1084, 0x1085, 0x1086]]⟩,
  -- homeseer_ezmultipli_0_0.json
  ⟨cs! "001E", [cs! "0004:0001"], "Express Controls", "EZMultiPli", "Multi Sensor",
   [[0x2400, 0x2420, 0x6431, 0x2433, 0x2470, 0x2471, 0x2472, 0x2477, 0x2485, 0x2486]]⟩,
  -- homeseer_hswd100_0_0.json
  ⟨cs! "000C", [cs! "4447:3034"], "HomeSeer Technologies", "HS-WD100+", "Scene Capable Wall Dimmer Switch",
   [[0x2400, 0x2520, 0x2526, 0x2527, 0x242b, 0x2559, 0x255a, 0x245b, 0x245e, 0x2570, 0x3572, 0x2573, 0x357a, 0x3585, 0x3586]]⟩,
  -- homeseer_hsws100_0_0.json
  ⟨cs! "000C", [cs! "4447:3033"], "HomeSeer Technologies", "HS-WS100+", "Scene Capable Wall Switch",
   [[0x2400, 0x2520, 0x2525, 0x2527, 0x242b, 0x242c, 0x2559, 0x255a, 0x245b, 0x245e, 0x2570, 0x2572, 0x2573, 0x257a, 0x2585, 0x2586]]⟩,
  -- honeywell_th8320zw_0_0.json
  ⟨cs! "0039", [cs! "0011:0001"], "Honeywell", "TH8320ZW", "VisionPRO Z-Wave Touchscreen Programmable\r\n\t\t\t\tThermostat\r\n\t\t\t",
   [[0x2400, 0x2520, 0x2527, 0x4531, 0x3540, 0x2542, 0x3543, 0x3544, 0x2545, 0x2572, 0x2585, 0x2586]]⟩,
  -- horstmann_asrzw_0_0.json
  ⟨cs! "0059", [cs! "0003:0001"], "Horstmann Controls Limited", "ASR-ZW", "Thermostat Receiver",
   [[0x2400, 0x2420, 0x2425, 0x2440, 0x2472, 0x2486]]⟩,
  -- horstmann_hrt4zw_0_0.json
  ⟨cs! "0059", [cs! "0001:0003"], "Horstmann Controls Limited", "HRT4-ZW", "Battery Powered Wall Thermostat",
   [[0x2400, 0x2420, 0x1425, 0x2431, 0x1440, 0x2443, 0x2470, 0x2472, 0x2480, 0x3484, 0x2485, 0x2486]]⟩,
  -- horstmann_scsc17_0_0.json
  ⟨cs! "0059", [cs! "0004:0001"], "Horstmann Controls Limited", "SCSC-17", "7 Day Room Thermostat",
   [[0x2400, 0x2420, 0x1525, 0x3531, 0x1440, 0x2542, 0x2543, 0x1553, 0x2570, 0x2572, 0x2580, 0x3584, 0x2585, 0x2586, 0x148a]]⟩,
  -- horstmann_ses302_0_0.json
  ⟨cs! "0059", [cs! "000D:0002"], "Horstmann Controls Limited", "SES 302", "Temperature sensor",
   [[0x2400, 0x2420, 0x6431, 0x3460, 0x2470, 0x2472, 0x2480, 0x3484, 0x2485, 0x2486], [0x1420, 0x6431, 0x2470, 0x2472, 0x2480, 0x3484, 0x2485, 0x2486], [0x1420, 0x6431, 0x2470, 0x2485, 0x2486], [0x1420, 0x6431, 0x2470, 0x2485, 0x2486]]⟩,
  -- horstmann_sir321_0_0.json
  ⟨cs! "0059", [cs! "0010:0001", cs! "0010:0002"], "Horstmann Controls Limited", "SIR-321", "RF Countdown Timer",
   [[0x2400, 0x2420, 0x2425, 0x2431, 0x2470, 0x2472, 0x2485, 0x2486]]⟩,
  -- horstmann_srt323_0_0.json
  ⟨cs! "0059", [cs! "0001:0004"], "Horstmann Controls Limited", "SRT323", "Secure Z-Wave Room Thermostat",
   [[0x2400, 0x2420, 0x2531, 0x2540, 0x2542, 0x2543, 0x2570, 0x2572, 0x2580, 0x3584, 0x2585, 0x2586]]⟩,
  -- horstmann_ssr302_0_0.json
  ⟨cs! "0059", [cs! "0003:0002"], "Horstmann Controls Limited", "SSR-302", "Two Channel Boiler Actuator",
   [[0x2400, 0x2420, 0x2425, 0x2440, 0x3460, 0x2472, 0x2486], [0x1420, 0x2425, 0x2440], [0x1420, 0x2425, 0x2440]]⟩,
  -- horstmann_swm301_0_0.json
  ⟨cs! "0059", [cs! "000F:0001"], "Horstmann Controls Limited", "SWM301", "Z-Wave Module for Water Meter",
   [[0x2400, 0x2420, 0x2531, 0x2532, 0x2556, 0x2570, 0x2572, 0x2580, 0x3584, 0x2585, 0x2586, 0x259c]]⟩,
  -- idlock_idl101_0_0.json
  ⟨cs! "0230", [cs! "0003:0001"], "Alphonsus Tech", "IDL-101", "Z-Wave Lock",
   [[0x2400, 0x2259, 0x255a, 0x355e, 0x3262, 0x2263, 0x2570, 0x5471, 0x3572, 0x2573, 0x327a, 0x2580, 0x3285, 0x3286, 0x2598], []]⟩,
  -- idlock_idl101_1_0.json
  ⟨cs! "0230", [cs! "0003:0001"], "Alphonsus Tech", "IDL-101", "Z-Wave Lock",
   [[0x2400, 0x2259, 0x255a, 0x355e, 0x3262, 0x2263, 0x2570, 0x5471, 0x3572, 0x2573, 0x327a, 0x2580, 0x3285, 0x3286, 0x2598], []]⟩,
  -- ingersollecolink_dwzwave1_0_0.json
  ⟨cs! "011F", [cs! "0001:0002"], "Ingersoll Rand (was Ecolink)", "DWZWAVE1", "Z-Wave Door/Window Sensor",
   [[0x2400, 0x2420, 0x2530, 0x2570, 0x3571, 0x2572, 0x2580, 0x3584, 0x3585, 0x2586]]⟩,
  -- innovus_00110001_0_0.json
  ⟨cs! "0077", [cs! "0011:0001"], "INNOVUS", "00110001", "RAone SmartDimmer",
   [[0x1400, 0x2420, 0x2026, 0x2427, 0x2428, 0x2431, 0x3432, 0x2470, 0x2472, 0x1473, 0x2475, 0x2477, 0x2485]]⟩,
  -- innovus_00110001_1_0.json
  ⟨cs! "0077", [cs! "0011:0001"], "INNOVUS", "SmartDimmer", "RAone SmartDimmer",
   [[0x1400, 0x2420, 0x2026, 0x2427, 0x2428, 0x2431, 0x3432, 0x2470, 0x2472, 0x1473, 0x2475, 0x2477, 0x2485]]⟩,
  -- innovus_smartdimmer_0_0.json
  ⟨cs! "0077", [cs! "0011:0001"], "INNOVUS", "SmartDimmer", "RAone SmartDimmer",
   []⟩,
  -- innovus_smartpower_0_0.json
  ⟨cs! "0077", [cs! "0010:0001"], "INNOVUS", "SmartPower", "RAone SmartPower",
   [[0x2400, 0x2420, 0x2525, 0x2527, 0x2528, 0x3531, 0x2532, 0x2572, 0x2573, 0x2575, 0x2577, 0x2585, 0x2586]]⟩,
  -- intermatic_ca3500_0_0.json
  ⟨cs! "0005", [cs! "4341:0600"], "Intermatic", "CA3500", "15 Amp Split-Duplex Receptacle",
   [[0x2400, 0x2420, 0x2526, 0x2527, 0x2572, 0x2573, 0x2585, 0x2586, 0x1591]]⟩,
  -- intermatic_ca3750_0_0.json
  ⟨cs! "0005", [cs! "4341:3750"], "Intermatic", "CA3750", "Contactor/Switch",
   [[0x2400, 0x2420, 0x2525, 0x2527, 0x2560, 0x2572, 0x2573, 0x2586, 0x1591]]⟩,
  -- intermatic_ca8900_0_0.json
  ⟨cs! "0005", [cs! "4341:8900"], "Intermatic", "CA8900", "Z-Wave Thermostat",
   [[0x2400, 0x2420, 0x2531, 0x2540, 0x2542, 0x2543, 0x2572, 0x2586, 0x2587]]⟩,
  -- intermatic_ha01c_0_0.json
  ⟨cs! "0005", [cs! "0001:0003"], "Intermatic", "HA-01C", "In-Wall Dual Receptacle",
   [[0x2500, 0x2520, 0x2525, 0x2527, 0x2572, 0x2586]]⟩,
  -- intermatic_ha02_0_0.json
  ⟨cs! "0005", [cs! "0002:0003"], "Intermatic", "HA02", "Appliance Module",
   [[0x2400, 0x2520, 0x2525, 0x2527, 0x2572, 0x2586]]⟩,
  -- intermatic_ha03_0_0.json
  ⟨cs! "0005", [cs! "0003:0003"], "Intermatic", "HA03", "Lamp Module",
   [[0x2400, 0x2520, 0x2526, 0x2527, 0x2572, 0x2586]]⟩,
  -- intermatic_ha04_0_0.json
  ⟨cs! "0005", [cs! "0004:0003"], "Intermatic", "HA04", "Outdoor Module",
   [[0x2400, 0x2520, 0x2525, 0x2527, 0x2572, 0x2586]]⟩,
  -- intermatic_ha04c_0_0.json
  ⟨cs! "0005", [cs! "0004:0003"], "Intermatic", "HA-04C", "Outdoor Module",
   [[0x2400, 0x2520, 0x2525, 0x2527, 0x2572, 0x2586]]⟩,
  -- intermatic_ha05_0_0.json
  ⟨cs! "0005", [cs! "0005:0003"], "Intermatic", "HA05", "Screw in lamp module",
   [[0x2400, 0x2420, 0x2525, 0x2527, 0x2572, 0x2586]]⟩,
  -- intermatic_ha20_0_0.json
  ⟨cs! "0005", [cs! "4841:0020"], "Intermatic", "HA-20", "Dimmer Switch",
   [[0x2400, 0x2420, 0x2526, 0x2527, 0x2572, 0x2573, 0x2585, 0x2586]]⟩,
  -- intermatic_intermaticca3000_0_0.json
  ⟨cs! "0005", [cs! "4341:3000"], "Intermatic", "CA3000", "Wall Switch",
   [[0x2400, 0x2420, 0x2525, 0x2527, 0x2572, 0x2573, 0x2585, 0x2586, 0x1591]]⟩,
  -- intermatic_intermaticca3500_0_0.json
  ⟨cs! "0005", [cs! "4341:0600"], "Intermatic", "Intermatic CA3500", "15 Amp Split-Duplex Receptacle",
   [[0x2400, 0x2420, 0x2526, 0x2527, 0x2572, 0x2573, 0x2585, 0x2586, 0x1591]]⟩,
  -- kaipule_es61_0_0.json
  ⟨cs! "0214", [cs! "0002:0002"], "Kaipule Technology Co., Ltd.", "ES61", "Smoke Sensor",
   [[0x2400, 0x2420, 0x1530, 0x2559, 0x255a, 0x255e, 0x5571, 0x2572, 0x2573, 0x2580, 0x3584, 0x3585, 0x3586]]⟩,
  -- kichler_15dc200_0_0.json
  ⟨cs! "0114", [cs! "B005:3B60"], "Kichler", "15DC200", "200W Design Pro LED Controller",
   [[0x2400, 0x2520, 0x2525, 0x2527, 0x3560, 0x2570, 0x2572, 0x2586, 0x258a, 0x258b, 0x158c], [0x1420, 0x2425], [0x1420, 0x2425], [0x1420, 0x2425], [0x1420, 0x2425], [0x1420, 0x2425]]⟩,
  -- kwikset_914trl_0_0.json
  ⟨cs! "0090", [cs! "0001:0001"], "Black & Decker", "914TRL", "Touchpad Electronic Deadbolt",
   [[0x2600, 0x2620, 0x124c, 0x124e, 0x2662, 0x2663, 0x2670, 0x2671, 0x2772, 0x2675, 0x2476, 0x2680, 0x2685, 0x2786, 0x128b, 0x2598]]⟩,
  -- leviton_dz15s_0_0.json
  ⟨cs! "001D", [cs! "3401:0001"], "Leviton", "DZ15S", "Scene Capable Push On/Off",
   [[0x2400, 0x2520, 0x2525, 0x2527, 0x252b, 0x252c, 0x2559, 0x255a, 0x255e, 0x2570, 0x2572, 0x2573, 0x257a, 0x1482, 0x3585, 0x3586]]⟩,
  -- leviton_dz6hd_0_0.json
  ⟨cs! "001D", [cs! "3201:0001"], "Leviton", "DZ6HD", "600W Dimmer",
   [[0x2400, 0x2420, 0x4426, 0x2427, 0x242b, 0x242c, 0x2459, 0x245a, 0x245e, 0x2470, 0x2472, 0x2473, 0x247a, 0x1482, 0x3485, 0x3486]]⟩,
  -- leviton_dzmx11lz_0_0.json
  ⟨cs! "001D", [cs! "1B03:0334"], "Leviton", "DZMX1-1LZ", "Scene Capable Push On/Off",
   [[0x2400, 0x2420, 0x2426, 0x1427, 0x242b, 0x2472, 0x2486]]⟩,
  -- leviton_dzpa1_0_0.json
  ⟨cs! "001D", [cs! "1A02:0334", cs! "3601:0001"], "Leviton", "DZPA1", "Plug-in Appliance Module",
   [[0x2400, 0x2420, 0x2525, 0x2527, 0x252b, 0x2572, 0x2577, 0x2586]]⟩,
  -- leviton_dzpd32_0_0.json
  ⟨cs! "001D", [cs! "3501:0001"], "Leviton", "DZPD3-2", "Plug-In Dimmer",
   [[0x2400, 0x2520, 0x4526, 0x2527, 0x252b, 0x252c, 0x2559, 0x255a, 0x255e, 0x2570, 0x2572, 0x2573, 0x257a, 0x3585, 0x3586]]⟩,
  -- leviton_dzpd3_0_0.json
  ⟨cs! "001D", [cs! "1902:0334"], "Leviton", "DZPD3", "Lamp Module",
   [[0x2400, 0x2420, 0x2526, 0x2527, 0x252b, 0x152c, 0x2572, 0x2573, 0x2577, 0x2586, 0x1591]]⟩,
  -- leviton_dzr15_0_0.json
  ⟨cs! "001D", [cs! "1D04:0334"], "Leviton", "DZR15", "Scene Capable Receptacle",
   [[0x2400, 0x2420, 0x2525, 0x2527, 0x252b, 0x152c, 0x2572, 0x2573, 0x2577, 0x2586, 0x1591]]⟩,
  -- leviton_dzs15_0_0.json
  ⟨cs! "001D", [cs! "1C02:0334"], "Leviton", "DZS15", "Scene Capable Push On/Off",
   [[0x2400, 0x2420, 0x1422, 0x2425, 0x2427, 0x242b, 0x2472, 0x2477, 0x2486]]⟩,
  -- leviton_rzp03_0_0.json
  ⟨cs! "001D", [cs! "0201:0206"], "Leviton", "RZP03", "Scene Capable Plug-In Lamp Dimming Module",
   [[0x2020, 0x2026, 0x2027, 0x202b, 0x202c, 0x2072, 0x2073, 0x2077, 0x2082, 0x2085, 0x2086, 0x2091]]⟩,
  -- leviton_vrcs2mrx_0_0.json
  ⟨cs! "001D", [cs! "1102:0243"], "Leviton", "VRCS2-MRX", "Vizia RF + 2-Button Scene Controller with Switches ",
   [[0x2400, 0x2420, 0x1425, 0x102b, 0x102c, 0x2472, 0x1473, 0x2477, 0x2482, 0x2485, 0x2486, 0x2491]]⟩,
  -- leviton_vre06_0_0.json
  ⟨cs! "001D", [cs! "0E01:0334"], "Leviton", "VRE06", "Electronic Low Voltage Scene Capable Dimmer",
   [[0x2400, 0x2420, 0x2526, 0x2527, 0x252b, 0x252c, 0x2572, 0x2573, 0x2577, 0x2585, 0x2586, 0x1591]]⟩,
  -- leviton_vrf011lz_0_0.json
  ⟨cs! "001D", [cs! "1001:0334"], "Leviton", "Leviton VRF01-1LZ", "Z‑Wave Quiet Fan Speed Control",
   [[0x2400, 0x2420, 0x1422, 0x2526, 0x2527, 0x252b, 0x252c, 0x2572, 0x2573, 0x2577, 0x2585, 0x2586, 0x1591]]⟩,
  -- leviton_vrf01_0_0.json
  ⟨cs! "001D", [cs! "1001:0209", cs! "1001:0334"], "Leviton", "VRF01", "Scene Capable Quiet Fan Speed Control",
   [[0x2400, 0x2420, 0x2526, 0x2527, 0x252b, 0x252c, 0x2572, 0x2573, 0x2577, 0x2585, 0x2586, 0x1591]]⟩,
  -- leviton_vri06_0_0.json
  ⟨cs! "001D", [cs! "0401:0209", cs! "0401:0334"], "Leviton", "VRI06", "Incandescent Scene Capable Dimmer",
   [[0x2400, 0x2420, 0x2426, 0x2427, 0x242b, 0x242c, 0x2453, 0x2472, 0x2473, 0x2477, 0x2482, 0x2485, 0x2486, 0x2491]]⟩]

/-- database/json, files 301-350 -/
def devFiles6 : List DevFile := [
  -- leviton_vrmx11lz_0_0.json
  ⟨cs! "001D", [cs! "0602:0334"], "Leviton", "VRMX1-1LZ", "Scene Capable Push On/Off Dimmer",
   [[0x2400, 0x2420, 0x2526, 0x2527, 0x252b, 0x252c, 0x1430, 0x2572, 0x2573, 0x2577, 0x2585, 0x2586, 0x1591]]⟩,
  -- leviton_vrp03_0_0.json
  ⟨cs! "001D", [cs! "0202:030B"], "Leviton", "VRP03", "300W Scene Capable Plug-In Lamp Dimming Module",
   [[0x2400, 0x2420, 0x2426, 0x2427, 0x242b, 0x242c, 0x2472, 0x2473, 0x2477, 0x2482, 0x2485, 0x2486, 0x2491, 0x24ef]]⟩,
  -- leviton_vrpa1_0_0.json
  ⟨cs! "001D", [cs! "1805:0334"], "Leviton", "VRPA1", "Vizia RF + Scene Capable Plug-in Module",
   [[0x2400, 0x2420, 0x2425, 0x2427, 0x242b, 0x242c, 0x2472, 0x2473, 0x2477, 0x2485, 0x2486]]⟩,
  -- leviton_vrpd3_0_0.json
  ⟨cs! "001D", [cs! "1706:0334"], "Leviton", "VRPD3", "Scene Capable Plug-in Dimmer",
   [[0x2400, 0x2420, 0x1422, 0x2426, 0x1427, 0x242b, 0x1432, 0x2472, 0x2485, 0x2486]]⟩,
  -- leviton_vrs05_0_0.json
  ⟨cs! "001D", [cs! "0F01:0209"], "Leviton", "VRS05", "Scene Capable Switch",
   [[0x2020, 0x2025, 0x2027, 0x202b, 0x202c, 0x2072, 0x2073, 0x2077, 0x2082, 0x2085, 0x2086, 0x2091]]⟩,
  -- leviton_vrs15_0_0.json
  ⟨cs! "001D", [cs! "0301:0209", cs! "0301:0334"], "Leviton", "VRS15", "Scene Capable Push On/Off",
   [[0x2400, 0x2420, 0x2525, 0x2527, 0x252b, 0x252c, 0x2572, 0x2573, 0x2577, 0x2585, 0x2586, 0x1591]]⟩,
  -- linear_fs20z_0_0.json
  ⟨cs! "014F", [cs! "5246:3133"], "Linear Corp", "FS20Z", "Isolated Contact Fixture Module",
   [[0x2400, 0x2420, 0x2425, 0x242b, 0x2470, 0x2472, 0x2486]]⟩,
  -- linear_gb00z_0_0.json
  ⟨cs! "014F", [cs! "4742:3030"], "Linear Corp", "GB00Z", "Glass Break Detector",
   [[0x2400, 0x2520, 0x255a, 0x2572, 0x2580, 0x2582, 0x3584, 0x2585, 0x2586, 0x2587, 0x259c]]⟩,
  -- linear_lb60z1_0_0.json
  ⟨cs! "014F", [cs! "4754:3038"], "Linear Corp", "LB60Z-1", "Dimmable LED Light Bulb",
   [[0x2400, 0x2420, 0x2125, 0x2526, 0x2527, 0x1559, 0x255a, 0x255e, 0x2570, 0x2572, 0x2573, 0x157a, 0x2585, 0x2586]]⟩,
  -- linear_ngd00z4_0_0.json
  ⟨cs! "014F", [cs! "4744:3030", cs! "4744:3530"], "Linear Corp", "NGD00Z-4", "Garage Door Controller",
   [[0x2400, 0x2420, 0x245a, 0x2266, 0x5271, 0x2472, 0x2486]]⟩,
  -- linear_pd300z2_0_0.json
  ⟨cs! "014F", [cs! "4450:3030"], "Linear Corp", "PD300Z-2", "Plug-in Wall Dimmer",
   [[0x2400, 0x2420, 0x2526, 0x2527, 0x252b, 0x152c, 0x2570, 0x2572, 0x2573, 0x2586]]⟩,
  -- linear_ps15z_0_0.json
  ⟨cs! "014F", [cs! "5250:3030"], "Linear Corp", "PS15Z", "Plug-In Appliance Module",
   [[0x2400, 0x2420, 0x2525, 0x2527, 0x252b, 0x252c, 0x2570, 0x2572, 0x2573, 0x2575, 0x2586]]⟩,
  -- linear_tbz48_0_0.json
  ⟨cs! "014F", [cs! "5442:5431"], "Linear Corp", "TBZ48", "Thermostat",
   [[0x2400, 0x2420, 0x252b, 0x252c, 0x2531, 0x2540, 0x2542, 0x2543, 0x2544, 0x2545, 0x2570, 0x2572, 0x2573, 0x2580, 0x2581, 0x2585, 0x2586, 0x258f]]⟩,
  -- linear_wa105dbz1_0_0.json
  ⟨cs! "014F", [cs! "2009:0903"], "Linear Corp", "WA105DBZ-1", "Siren & Strobe",
   [[0x2400, 0x2420, 0x2525, 0x2570, 0x2572, 0x2586]]⟩,
  -- linear_wa105dbz_0_0.json
  ⟨cs! "014F", [cs! "2005:0503", cs! "2009:0903"], "Linear Corp", "WA105DBZ", "Siren",
   [[0x2400, 0x2420, 0x2425, 0x2470, 0x2472, 0x2480, 0x2486]]⟩,
  -- linear_wadwaz1_0_0.json
  ⟨cs! "014F", [cs! "2001:0102"], "Linear Corp", "WADWAZ-1", "Door/Windows Sensor",
   [[0x2400, 0x2420, 0x2430, 0x2471, 0x2472, 0x2480, 0x3484, 0x2485, 0x2486]]⟩,
  -- linear_wapirz_0_0.json
  ⟨cs! "014F", [cs! "2002:0203"], "Linear Corp", "WAPIRZ-1", "PIR Motion Detector",
   [[0x2400, 0x2420, 0x2430, 0x5431, 0x2470, 0x2471, 0x2472, 0x2480, 0x3484, 0x2485, 0x2486]]⟩,
  -- linear_wd500z_0_0.json
  ⟨cs! "014F", [cs! "4457:3034"], "Linear Corp", "WD500Z-1", "Wall Dimmer Switch",
   [[0x2400, 0x2420, 0x2526, 0x2527, 0x252b, 0x152c, 0x2570, 0x2572, 0x2573, 0x2586]]⟩,
  -- linear_wo15z_0_0.json
  ⟨cs! "014F", [cs! "5252:3530"], "Linear Corp", "WO15Z", "Single Wall Outlet",
   [[0x2400, 0x2420, 0x2525, 0x2527, 0x252b, 0x152c, 0x2570, 0x2572, 0x2573, 0x2575, 0x2586]]⟩,
  -- linear_ws15z_0_0.json
  ⟨cs! "014F", [cs! "5257:3533"], "Linear Corp", "WS15Z-1", "Wall Mounted Switch",
   [[0x2400, 0x2420, 0x1422, 0x2425, 0x1426, 0x2427, 0x242b, 0x2470, 0x2472, 0x1480, 0x2486]]⟩,
  -- linear_wt00z1_0_0.json
  ⟨cs! "014F", [cs! "5457:3033"], "Linear Corp", "WT00Z-1", "3-Way Wall Accessory Switch",
   []⟩,
  -- logic_zhc5010_0_0.json
  ⟨cs! "0234", [cs! "0002:010A", cs! "0003:010A"], "Logic Home Control", "ZHC5010", "FUGA Wall 4-way Switch with LED + Relay",
   [[0x2400, 0x2420, 0x2525, 0x4526, 0x2528, 0x2559, 0x255a, 0x355b, 0x255e, 0x3560, 0x2570, 0x2572, 0x2573, 0x257a, 0x3585, 0x3586, 0x2587, 0x458e], [0x1420, 0x2425, 0x4426, 0x2428, 0x2459, 0x245e, 0x3485, 0x2487, 0x448e], [0x1420, 0x2425, 0x4426, 0x2428, 0x2459, 0x245e, 0x3485, 0x2487, 0x448e], [0x1420, 0x2425, 0x4426, 0x2428, 0x2459, 0x245e, 0x3485, 0x2487, 0x448e], [0x1420, 0x2425, 0x4426, 0x2428, 0x2459, 0x245e, 0x3485, 0x2487, 0x448e]]⟩,
  -- logic_zhc5010_1_4.json
  ⟨cs! "0234", [cs! "0002:010A", cs! "0003:010A"], "Logic Home Control", "ZHC5010", "FUGA Wall 4-way Switch with LED + Relay",
   [[0x2400, 0x2420, 0x2525, 0x4526, 0x2528, 0x2559, 0x255a, 0x355b, 0x255e, 0x3560, 0x2570, 0x2572, 0x2573, 0x257a, 0x3585, 0x3586, 0x2587, 0x458e], [0x1420, 0x2425, 0x4426, 0x2428, 0x2459, 0x245e, 0x3485, 0x2487, 0x448e], [0x1420, 0x2425, 0x4426, 0x2428, 0x2459, 0x245e, 0x3485, 0x2487, 0x448e], [0x1420, 0x2425, 0x4426, 0x2428, 0x2459, 0x245e, 0x3485, 0x2487, 0x448e], [0x1420, 0x2425, 0x4426, 0x2428, 0x2459, 0x245e, 0x3485, 0x2487, 0x448e]]⟩,
  -- mcohome__0_0.json
  ⟨cs! "015F", [cs! "0000:0000"], "McoHome Technology Co., Ltd", "MH3700-HP", "Programmable Thermostat",
   []⟩,
  -- mcohome_co2monitor_0_0.json
  ⟨cs! "015F", [cs! "0905:0201"], "McoHome Technology Co., Ltd", "MH9-CO2-WD", "CO2 Monitor Air quality detector",
   [[0x6431, 0x2470, 0x5471, 0x2472, 0x2485, 0x2486, 0x249e]]⟩,
  -- mcohome_mcotps412_0_0.json
  ⟨cs! "015F", [cs! "4121:1302"], "McoHome Technology Co., Ltd", "MCO_TPS412", "Touch Panel Switch 2 Channel",
   [[0x2400, 0x2420, 0x2425, 0x2427, 0x3460, 0x2470, 0x2472, 0x3485, 0x2486, 0x348e], [0x1420, 0x2425], [0x1420, 0x2425]]⟩,
  -- mcohome_mh10pm25wa_0_0.json
  ⟨cs! "015F", [cs! "0A05:0100", cs! "0A05:0201"], "McoHome Technology Co., Ltd", "MH10-PM2.5-WA", "PM2.5 Monitor",
   [[0x2400, 0x1420, 0x6431, 0x2472, 0x2485, 0x2486]]⟩,
  -- mcohome_mh7_0_0.json
  ⟨cs! "015F", [cs! "0702:3102", cs! "0702:5102"], "McoHome Technology Co., Ltd", "MH7", "Water/Electrical Heating Thermostat",
   [[0x2400, 0x2420, 0x6531, 0x2540, 0x2542, 0x2543, 0x2572, 0x2585, 0x2586]]⟩,
  -- mcohome_mh8fc_1_2.json
  ⟨cs! "015F", [cs! "0801:3102"], "McoHome Technology Co., Ltd", "MH8-FC", "Fan Coil Thermostat",
   [[0x2400, 0x2420, 0x6531, 0x2540, 0x2542, 0x2543, 0x2544, 0x2545, 0x2572, 0x2585, 0x2586]]⟩,
  -- mcohome_mh9co2wd_0_0.json
  ⟨cs! "015F", [cs! "0905:0201"], "McoHome Technology Co., Ltd", "MH9-CO2-WD", "CO2 Monitor Air quality detector",
   [[0x6431, 0x2470, 0x5471, 0x2472, 0x2485, 0x2486, 0x249e]]⟩,
  -- mcohome_mhs312_0_0.json
  ⟨cs! "015F", [cs! "3102:0202"], "McoHome Technology Co., Ltd", "MH-S312", "Two Way Switch",
   [[0x2400, 0x2420, 0x2525, 0x2527, 0x3560, 0x1570, 0x2572, 0x2585, 0x2586, 0x258e], [0x1420, 0x2425], [0x1420, 0x2425]]⟩,
  -- mcohome_mhs314_0_0.json
  ⟨cs! "015F", [cs! "3102:0204", cs! "3141:1302"], "McoHome Technology Co., Ltd", "MH-S314", "Four Way Switch",
   [[0x2400, 0x2420, 0x2525, 0x2527, 0x3560, 0x1570, 0x2572, 0x2585, 0x2586, 0x258e], [0x1420, 0x2425], [0x1420, 0x2425], [0x1420, 0x2425], [0x1420, 0x2425]]⟩,
  -- mcohome_mhs411_0_0.json
  ⟨cs! "015F", [cs! "4102:0201"], "McoHome Technology Co., Ltd", "MH-S411", "Touch Panel Switch (Single)",
   [[0x2400, 0x2420, 0x2425, 0x2427, 0x2472, 0x2485, 0x2486]]⟩,
  -- mcohome_mhs412_0_0.json
  ⟨cs! "015F", [cs! "4102:0202"], "McoHome Technology Co., Ltd", "MH-S412", "Touch Panel Switch (Dual)",
   [[0x2400, 0x2420, 0x2425, 0x2427, 0x3460, 0x2470, 0x2472, 0x2485, 0x2486], [0x1420, 0x2425], [0x1420, 0x2425]]⟩,
  -- mcohome_tps411_0_0.json
  ⟨cs! "015F", [cs! "4111:1302"], "McoHome Technology Co., Ltd", "TPS411", "Touch Panel Switch 1 Button",
   [[0x2400, 0x2420, 0x2425, 0x2427, 0x3460, 0x2470, 0x2472, 0x3485, 0x2486, 0x348e], [0x1420, 0x2425]]⟩,
  -- mcohome_tps412_0_0.json
  ⟨cs! "015F", [cs! "4121:1302"], "McoHome Technology Co., Ltd", "TPS412", "Touch Panel Switch 2 Channel",
   [[0x2400, 0x2420, 0x2425, 0x2427, 0x3460, 0x2470, 0x2472, 0x3485, 0x2486, 0x348e], [0x1420, 0x2425], [0x1420, 0x2425]]⟩,
  -- merten_505160_0_0.json
  ⟨cs! "007A", [cs! "0001:0002"], "Merten", "5051xx", "Radio Push-button CONNECT, 1f",
   []⟩,
  -- merten_506119_0_0.json
  ⟨cs! "007A", [cs! "0001:0002"], "Merten", "506119", "Battery Powered Wall Controller",
   []⟩,
  -- merten_507001_0_0.json
  ⟨cs! "007A", [cs! "8001:8001"], "Merten", "507001", "Switch Wall Insert 1 Gang",
   [[0x2400, 0x2420, 0x2525, 0x2527, 0x2528, 0x2570, 0x2572, 0x3575, 0x2585, 0x2586]]⟩,
  -- merten_507501_0_0.json
  ⟨cs! "007A", [cs! "8001:8002"], "Merten", "507501", "Merten Connect  Flush-mounted switch",
   [[0x2400, 0x2420, 0x2425, 0x2427, 0x2428, 0x2470, 0x2472, 0x3475, 0x2485, 0x2486]]⟩,
  -- merten_507601_0_0.json
  ⟨cs! "007A", [cs! "8001:8003"], "Merten", "507601", "Dual Pole Wall Switch",
   [[0x1025]]⟩,
  -- merten_507900_0_0.json
  ⟨cs! "007A", [cs! "4003:0002"], "Merten", "507900", "Wall Dimmer Module - Flush Mounted ",
   [[0x2400, 0x2420, 0x2526, 0x2527, 0x2529, 0x2570, 0x2572, 0x3575, 0x2585, 0x2586, 0x258e]]⟩,
  -- merten_5082xx_0_0.json
  ⟨cs! "007A", [cs! "0002:0001"], "Merten", "5082xx", "Battery Powered Wall Controller MOVE",
   [[0x2400, 0x2420, 0x2570, 0x2572, 0x2585, 0x2586, 0x258e]]⟩,
  -- merten_509519_0_0.json
  ⟨cs! "007A", [cs! "4005:0001"], "Merten", "509519", "Merten Radio Argus 220 Connect Movement Detector",
   [[0x2400, 0x2420, 0x2525, 0x3560, 0x2570, 0x2572, 0x3575, 0x2585, 0x2586, 0x258e], [0x1420, 0x2425, 0x2472, 0x3475, 0x2486], [0x1420, 0x2425, 0x2472, 0x2486], [0x1420, 0x1430, 0x1431, 0x2472, 0x2486, 0x149e], [0x1420, 0x1430, 0x1431, 0x2472, 0x2486, 0x149e]]⟩,
  -- merten_50x5xx_0_0.json
  ⟨cs! "007A", [cs! "4004:0001"], "Merten", "50x5xx", "roller shutter push-button",
   [[0x2400, 0x2420, 0x2526, 0x2431, 0x2450, 0x3460, 0x2470, 0x2472, 0x3475, 0x2485, 0x2486, 0x249e], [0x2400, 0x1420, 0x2426, 0x2431, 0x2450, 0x2472, 0x3475, 0x2486, 0x249e], [0x2400, 0x1420, 0x2426, 0x2450, 0x2472, 0x3475, 0x2486]]⟩,
  -- merten_mertenradioargus220connect_0_0.json
  ⟨cs! "007A", [cs! "4005:0001"], "Merten", "509519", "Merten Radio Argus 220 Connect Movement Detector",
   [[0x2400, 0x2420, 0x2525, 0x3560, 0x2570, 0x2572, 0x3575, 0x2585, 0x2586, 0x258e], [0x1420, 0x2425, 0x2472, 0x3475, 0x2486], [0x1420, 0x2425, 0x2472, 0x2486], [0x1420, 0x1430, 0x1431, 0x2472, 0x2486, 0x149e], [0x1420, 0x1430, 0x1431, 0x2472, 0x2486, 0x149e]]⟩,
  -- nexia_db100z_0_0.json
  ⟨cs! "0178", [cs! "4442:3130"], "Nexia Home Intelligence", "DB100Z", "Doorbell",
   [[0x2400, 0x2420, 0x1559, 0x255a, 0x255e, 0x2570, 0x4571, 0x2572, 0x2573, 0x157a, 0x2580, 0x3584, 0x2585, 0x2586]]⟩,
  -- nodon_asp31_0_0.json
  ⟨cs! "0165", [cs! "0001:0001"], "ID-RF", "ASP-3-1", "Smart Plug",
   [[0x2400, 0x2420, 0x2525, 0x2527, 0x2559, 0x255a, 0x255e, 0x2570, 0x4571, 0x2572, 0x2573, 0x3575, 0x2585, 0x3586, 0x2587]]⟩,
  -- nodon_crc3100_0_0.json
  ⟨cs! "0165", [cs! "0002:0001"], "ID-RF", "CRC-3100", "Octon Remote Control",
   [[0x2400, 0x2420, 0x202b, 0x1559, 0x255a, 0x355b, 0x255e, 0x2570, 0x2572, 0x2573, 0x2580, 0x3584, 0x2585, 0x2586]]⟩,
  -- nodon_cws3101_0_0.json
  ⟨cs! "0165", [cs! "0002:0003"], "ID-RF", "CWS-3101", "Wall Switch",
   [[0x2400, 0x2420, 0x202b, 0x305b, 0x2470, 0x2472, 0x2480, 0x3484, 0x2485, 0x2486]]⟩]

/-- database/json, files 351-400 -/
def devFiles7 : List DevFile := [
  -- nodon_msp31x1_0_0.json
  ⟨cs! "0165", [cs! "0001:0003"], "ID-RF", "MSP-3-1-X1", " Z-Wave Plus Micro Smart Plug ON/OFF",
   [[0x2400, 0x2420, 0x2525, 0x2527, 0x4532, 0x2559, 0x255a, 0x255e, 0x2570, 0x5571, 0x2572, 0x2573, 0x3575, 0x257a, 0x3585, 0x3586, 0x2587]]⟩,
  -- nodon_softremote_0_0.json
  ⟨cs! "0165", [cs! "0002:0002"], "ID-RF", "Soft Remote", "Remote Control",
   [[0x2400, 0x2420, 0x2559, 0x155a, 0x255b, 0x255e, 0x2570, 0x2572, 0x2573, 0x2580, 0x3584, 0x2585, 0x2586]]⟩,
  -- northq_nq-9121_0_0.json
  ⟨cs! "0096", [cs! "0010:0001"], "NorthQ", "NQ-9121", "NorthQ Gas Meter",
   []⟩,
  -- northq_nq9021_0_0.json
  ⟨cs! "0096", [cs! "0001:0001"], "NorthQ", "NQ-9021", "NorthQ Electrical Meter",
   [[0x2400, 0x2520, 0x3532, 0x153d, 0x2556, 0x2570, 0x2572, 0x157a, 0x2580, 0x2584, 0x2586, 0x158b]]⟩,
  -- northq_nq9022_0_0.json
  ⟨cs! "0096", [cs! "0001:0002"], "NorthQ", "NQ-9022", "NorthQ Electrical Meter",
   [[0x2400, 0x2520, 0x3532, 0x253d, 0x2556, 0x2570, 0x2572, 0x257a, 0x2586, 0x258b]]⟩,
  -- northq_nq9121_3_0.json
  ⟨cs! "0096", [cs! "0010:0001"], "NorthQ", "NQ-9121", "NorthQ Q-Gas 9121 (Firmware v3, 2016)",
   [[0x2400, 0x2520, 0x3532, 0x253d, 0x2556, 0x2570, 0x2572, 0x257a, 0x2580, 0x2584, 0x2586, 0x258b]]⟩,
  -- philio_pab01_0_0.json
  ⟨cs! "013C", [cs! "0006:001A"], "Philio Technology Corp", "ZIP-PAB01", "Zipato Micromodule Energy Meter",
   [[0x4432, 0x2456, 0x2459, 0x245a, 0x245e, 0x3460, 0x2470, 0x2472, 0x2473, 0x247a, 0x3485, 0x3486, 0x448e], [0x4432, 0x3060], [0x4432], [0x4432]]⟩,
  -- philio_pad02_0_0.json
  ⟨cs! "013C", [cs! "0005:0031"], "Philio Technology Corp", "PAD02", "Dimmer Socket",
   [[0x2400, 0x2420, 0x3726, 0x272b, 0x272c, 0x2759, 0x275a, 0x275e, 0x2770, 0x2771, 0x2772, 0x2773, 0x277a, 0x3785, 0x3786, 0x2598]]⟩,
  -- philio_pan03_0_0.json
  ⟨cs! "013C", [cs! "0001:000F"], "Philio Technology Corp", "PAN03", "In Wall Micromodule Single Switch",
   [[0x2400, 0x2520, 0x2525, 0x2527, 0x4532, 0x2559, 0x255a, 0x255e, 0x2570, 0x2571, 0x2572, 0x2573, 0x3575, 0x257a, 0x3585, 0x3586, 0x1598]]⟩,
  -- philio_pan04_0_0.json
  ⟨cs! "013C", [cs! "0001:0003", cs! "0001:0012", cs! "0001:0014"], "Philio Technology Corp", "PAN04", "In Wall Dual Relay(1 Way) Switch Module 2x 1.5kW\t\t\t\twith power meter\t\t\t",
   [[0x2400, 0x2420, 0x2425, 0x2427, 0x242b, 0x4432, 0x3460, 0x2470, 0x2471, 0x2472, 0x2485, 0x2486], [0x1420, 0x2425, 0x4432], [0x1420, 0x2425, 0x4432], [0x1420, 0x2425, 0x4432]]⟩,
  -- philio_pan06_0_0.json
  ⟨cs! "013C", [cs! "0001:0004", cs! "0001:0013"], "Philio Technology Corp", "PAN06", "In Wall Dual Relay(1 Way) Switch Module 2x 1.5kW\t\t\t",
   [[0x2400, 0x2520, 0x2525, 0x2527, 0x3560, 0x2570, 0x2571, 0x2572, 0x2585, 0x2586], [0x1420, 0x2425], [0x1420, 0x2425], [0x1420, 0x2425]]⟩,
  -- philio_pan08_0_0.json
  ⟨cs! "013C", [cs! "0001:0006", cs! "0001:0015"], "Philio Technology Corp", "PAN08", "Relay Insert for Blind Control",
   [[0x2400, 0x2520, 0x2525, 0x4526, 0x252b, 0x252c, 0x4532, 0x2570, 0x2571, 0x2572, 0x2585, 0x2586]]⟩,
  -- philio_pan11_0_0.json
  ⟨cs! "013C", [cs! "0001:0001", cs! "0001:0011", cs! "0001:0030"], "Philio Technology Corp", "PAN11", "Smart Energy Plug In Switch",
   [[0x2400, 0x2520, 0x2525, 0x2527, 0x4532, 0x2559, 0x255a, 0x355e, 0x2570, 0x2571, 0x3572, 0x2573, 0x3575, 0x357a, 0x3585, 0x2486, 0x2598]]⟩,
  -- philio_pat02_0_0.json
  ⟨cs! "013C", [cs! "0002:001F"], "Philio Technology Corp", "PAT02", "Flood Multisensor (incl. humidty and temperature)",
   [[0x2400, 0x2420, 0x3430, 0x6431, 0x2470, 0x2471, 0x2472, 0x2480, 0x3484, 0x2485, 0x2486, 0x248f]]⟩,
  -- philio_pat02a_0_0.json
  ⟨cs! "013C", [cs! "0002:001F"], "Philio Technology Corp", "PAT02-A", "Flood Multisensor (incl. humidty and temperature)",
   [[0x2400, 0x2420, 0x3430, 0x6431, 0x2470, 0x2471, 0x2472, 0x2480, 0x3484, 0x2485, 0x2486, 0x248f]]⟩,
  -- philio_pat02b_0_0.json
  ⟨cs! "013C", [cs! "0002:0020"], "Philio Technology Corp", "PAT02-B", "Z-Wave room sensor",
   [[0x2400, 0x2420, 0x3530, 0x6531, 0x2559, 0x255a, 0x255e, 0x2570, 0x5571, 0x2572, 0x2573, 0x257a, 0x2580, 0x3584, 0x3585, 0x3586, 0x258f, 0x2598]]⟩,
  -- philio_pat02c_0_0.json
  ⟨cs! "013C", [cs! "0002:0021"], "Philio Technology Corp", "PAT02-C", "Flood Sensor",
   [[0x2400, 0x2420, 0x3530, 0x2559, 0x255a, 0x255e, 0x2570, 0x4571, 0x2572, 0x2573, 0x257a, 0x2580, 0x3584, 0x2585, 0x2586, 0x258f, 0x2598]]⟩,
  -- philio_pat02c_1_11.json
  ⟨cs! "013C", [cs! "0002:0021"], "Philio Technology Corp", "PAT02-1C", "Flood Sensor",
   [[0x2400, 0x2420, 0x3530, 0x2559, 0x255a, 0x255e, 0x2570, 0x4571, 0x2572, 0x2573, 0x257a, 0x2580, 0x3584, 0x2585, 0x2586, 0x258f, 0x2598]]⟩,
  -- philio_pse02_0_0.json
  ⟨cs! "013C", [cs! "0004:000A"], "Philio Technology Corp", "PSE02", "Siren",
   [[0x2400, 0x2420, 0x2425, 0x1559, 0x255a, 0x255e, 0x4071, 0x2572, 0x2573, 0x157a, 0x2586, 0x1598]]⟩,
  -- philio_psm02_0_0.json
  ⟨cs! "013C", [cs! "0002:0002"], "Philio Technology Corp", "PSM02", "Slim Multi-Sensor",
   [[0x2400, 0x2420, 0x3430, 0x6431, 0x2470, 0x2472, 0x2480, 0x3484, 0x2485, 0x2486]]⟩,
  -- philio_psr04_0_0.json
  ⟨cs! "013C", [cs! "0009:0022"], "Philio Technology Corp", "PSR04", "Smart Color Button",
   [[0x2400, 0x2520, 0x2559, 0x255a, 0x235b, 0x355e, 0x2370, 0x3572, 0x2573, 0x357a, 0x2380, 0x3384, 0x3385, 0x3586, 0x258f, 0x2598]]⟩,
  -- philio_pst02a_0_0.json
  ⟨cs! "013C", [cs! "0002:000C"], "Philio Technology Corp", "PST02A", "Slim Multi-Sensor (PIR/Door/Temperature/Illumination)",
   [[0x2400, 0x2420, 0x3430, 0x6431, 0x1559, 0x155a, 0x155e, 0x2470, 0x2471, 0x2472, 0x1573, 0x2480, 0x3484, 0x2485, 0x2486, 0x248f]]⟩,
  -- philio_pst02b_0_0.json
  ⟨cs! "013C", [cs! "0002:000D"], "Philio Technology Corp", "PST02B", "Slim Multi-Sensor (PIR/Temperature/Illumination)",
   [[0x2400, 0x2420, 0x3530, 0x6531, 0x2559, 0x255a, 0x255e, 0x2570, 0x4571, 0x2572, 0x2573, 0x257a, 0x2580, 0x3584, 0x2585, 0x2586, 0x258f, 0x2598]]⟩,
  -- philio_pst02c_0_0.json
  ⟨cs! "013C", [cs! "0002:000E"], "Philio Technology Corp", "PST02C", "Slim Multi-Sensor (Door/Temperature/Illumination)",
   [[0x2400, 0x2420, 0x3430, 0x6431, 0x2470, 0x2471, 0x2472, 0x2480, 0x3484, 0x2485, 0x2486, 0x248f]]⟩,
  -- polycontrol_btzu125_0_0.json
  ⟨cs! "010E", [cs! "0008:0002"], "Poly-control", "BTZW125", "Danalock v2 circle",
   [[0x2400, 0x2220, 0x2422, 0x2259, 0x345e, 0x3362, 0x2270, 0x3772, 0x2473, 0x2680, 0x3285, 0x228a, 0x228b]]⟩,
  -- popp_004001_0_0.json
  ⟨cs! "0154", [cs! "0100:0201"], "Popp & Co", "004001", "Smoke Detector and Siren",
   [[0x2400, 0x2420, 0x2425, 0x3430, 0x2470, 0x2471, 0x2472, 0x2480, 0x2485, 0x2486]]⟩,
  -- popp_004407_1_0.json
  ⟨cs! "0154", [cs! "0004:0003"], "Popp & Co", "004407", "CO Detector",
   [[0x2400, 0x2520, 0x3530, 0x8531, 0x2559, 0x255a, 0x255e, 0x2570, 0x6571, 0x2572, 0x2573, 0x257a, 0x2580, 0x3584, 0x3585, 0x3586]]⟩,
  -- popp_005107_0_0.json
  ⟨cs! "0154", [cs! "0000:0000"], "Popp & Co", "005107", "Solar Powered Outdoor Siren",
   [[0x2400, 0x2420, 0x2425, 0x3430, 0x6431, 0x2470, 0x2471, 0x2472, 0x2480, 0x2485, 0x2486]]⟩,
  -- popp_005107_1_1.json
  ⟨cs! "0154", [cs! "0004:0002"], "Popp & Co", "005107", "Solar Powered Outdoor Siren",
   [[0x2400, 0x2420, 0x2425, 0x3430, 0x6431, 0x2470, 0x2471, 0x2472, 0x2480, 0x2485, 0x2486]]⟩,
  -- popp_005107_1_3.json
  ⟨cs! "0154", [cs! "0004:0002"], "Popp & Co", "005107", "Solar Powered Outdoor Siren",
   [[0x2400, 0x2420, 0x2425, 0x3430, 0x6431, 0x2470, 0x2471, 0x2472, 0x2480, 0x2485, 0x2486]]⟩,
  -- popp_005206_0_0.json
  ⟨cs! "0154", [cs! "0100:0400"], "Popp & Co", "005206", "Z-Weather",
   [[0x2400, 0x2420, 0x1430, 0x7531, 0x4532, 0x2559, 0x255a, 0x255e, 0x2570, 0x2572, 0x2573, 0x2580, 0x3584, 0x3585, 0x3586, 0x2589, 0x358e, 0x258f, 0x159b]]⟩,
  -- popp_009204_0_0.json
  ⟨cs! "0154", [cs! "0100:0103"], "Popp & Co", "009204", "KFOB-C Remote-Control",
   [[0x2400, 0x2420, 0x252d, 0x2559, 0x255a, 0x255b, 0x255e, 0x2570, 0x2572, 0x2573, 0x2580, 0x3584, 0x2585, 0x3586, 0x258e, 0x258f]]⟩,
  -- popp_009303_0_0.json
  ⟨cs! "0154", [cs! "0100:0101"], "Popp & Co", "009303", "Wall Controller",
   [[0x2400, 0x2420, 0x1426, 0x142b, 0x152d, 0x1559, 0x255a, 0x245b, 0x255e, 0x2570, 0x2572, 0x2573, 0x2580, 0x3584, 0x2585, 0x2586, 0x158e, 0x258f]]⟩,
  -- popp_009402_0_0.json
  ⟨cs! "0154", [cs! "0004:0004"], "Popp & Co", "009402", "10 Year Smoke Detector with Siren Function",
   [[0x2400, 0x2420, 0x2425, 0x3430, 0x2470, 0x2471, 0x2472, 0x2480, 0x2485, 0x2486]]⟩,
  -- popp_009402_1_14.json
  ⟨cs! "0154", [cs! "0004:0004"], "Popp & Co", "009402", "10 Year Smoke Detector",
   [[0x2400, 0x2520, 0x2525, 0x3530, 0x2559, 0x255a, 0x255e, 0x2570, 0x6571, 0x2572, 0x2573, 0x257a, 0x2580, 0x3585, 0x3586]]⟩,
  -- popp_012501_0_0.json
  ⟨cs! "0154", [cs! "0005:0001"], "Popp & Co", "012501", "Electric Strike Lock Control",
   [[0x2400, 0x2420, 0x3530, 0x2559, 0x255a, 0x255e, 0x1462, 0x1463, 0x2570, 0x6571, 0x2572, 0x2573, 0x2476, 0x257a, 0x2580, 0x3585, 0x3586]]⟩,
  -- popp_05438_0_0.json
  ⟨cs! "0154", [cs! "0003:0001"], "Popp & Co", "05438", "Indoor/Outdoor Wall Plug Switch",
   [[0x2400, 0x2420, 0x2425, 0x1427, 0x4432, 0x2470, 0x2472, 0x2485, 0x2486, 0x1487]]⟩,
  -- popp_123580_0_0.json
  ⟨cs! "0154", [cs! "1100:0002"], "Popp & Co", "123580", "Wall Plug Dimmer",
   [[0x2400, 0x2520, 0x3526, 0x1527, 0x2570, 0x2572, 0x1575, 0x1577, 0x2585, 0x2586, 0x1587]]⟩,
  -- popp_123610_0_0.json
  ⟨cs! "0154", [cs! "1100:0001"], "Popp & Co", "123610", "Wall Plug Switch",
   [[0x2400, 0x2520, 0x2525, 0x2527, 0x2570, 0x2572, 0x2575, 0x2577, 0x2585, 0x2586, 0x2587]]⟩,
  -- popp_123665_0_0.json
  ⟨cs! "0154", [cs! "0001:0001"], "Popp & Co", "123665", "Wall Plug Meter Switch",
   [[0x2400, 0x2520, 0x2525, 0x2527, 0x4532, 0x2570, 0x2572, 0x2585, 0x2586]]⟩,
  -- popp_pope005206_0_0.json
  ⟨cs! "0169", [cs! "0001:0001"], "POPP_NEW", "POPE005206", "Z Weather",
   [[0x2400, 0x2420, 0x1430, 0x7531, 0x4532, 0x2559, 0x145a, 0x255e, 0x2570, 0x2572, 0x2573, 0x2580, 0x3584, 0x2585, 0x2586, 0x2589, 0x158e, 0x258f, 0x159b]]⟩,
  -- popp_pope700168_0_0.json
  ⟨cs! "0154", [cs! "0004:0011"], "Popp & Co", "POPE700168", "POPP Rain-Sensor",
   [[0x2400, 0x8431, 0x4432, 0x2459, 0x245a, 0x245e, 0x2470, 0x2472, 0x2473, 0x247a, 0x2480, 0x3484, 0x3485, 0x3486]]⟩,
  -- prodrive_ed20_0_0.json
  ⟨cs! "0128", [cs! "0000:0000"], "Prodrive Technologies", "ED2.0", "Eneco Meter Adapter",
   [[0x2400, 0x2420, 0x2522, 0x153c, 0x253d, 0x153e, 0x2556, 0x3560, 0x2570, 0x2572, 0x2573, 0x157a, 0x2586, 0x258b], [0x1420, 0x243d, 0x2472, 0x2486], [0x1420, 0x243d, 0x2472, 0x2486], [0x1420, 0x243d, 0x2472, 0x2486], [0x1420, 0x243d, 0x2472, 0x2486], [0x1420, 0x243d, 0x2472, 0x2486], [0x1420, 0x243d, 0x2472, 0x2486]]⟩,
  -- qees_p313a_0_0.json
  ⟨cs! "0095", [cs! "3103:0001"], "Qees", "P313A", "Plug-in Socket Dimmer",
   [[0x2400, 0x2420, 0x1425, 0x3526, 0x2527, 0x252b, 0x252c, 0x4532, 0x2572, 0x257a, 0x3585, 0x2586]]⟩,
  -- qees_qeeswall_0_0.json
  ⟨cs! "0095", [cs! "0002:0001"], "Qees", "Qees Wall", "Wall mountable mini 4 button remote",
   [[0x2400, 0x2420, 0x2570, 0x2572, 0x2580, 0x2584, 0x2585, 0x2586]]⟩,
  -- qubino_zmnhaa_0_0.json
  ⟨cs! "0159", [cs! "0002:0002"], "Goap", "ZMNHAA", "Flush 1 relay",
   [[0x2400, 0x2420, 0x2425, 0x4431, 0x4432, 0x3460, 0x2470, 0x2472, 0x2485, 0x2486], [0x1420, 0x1430], [0x1420, 0x1430]]⟩,
  -- qubino_zmnhad_0_0.json
  ⟨cs! "0159", [cs! "0002:0052"], "Goap", "ZMNHAD", "Flush 1 relay",
   [[0x2400, 0x2520, 0x2525, 0x2527, 0x2530, 0x4532, 0x2559, 0x255a, 0x255e, 0x3560, 0x2570, 0x4571, 0x2572, 0x2573, 0x2585, 0x2586, 0x158e], [0x1420, 0x2425, 0x2427, 0x4432, 0x2459, 0x245e, 0x2485, 0x2486], [0x1420, 0x2430, 0x2459, 0x245e, 0x4471, 0x2485, 0x2486], [0x1420, 0x2430, 0x8031, 0x3459, 0x345e, 0x4471, 0x3485, 0x3486, 0x448e]]⟩,
  -- qubino_zmnhba_0_0.json
  ⟨cs! "0159", [cs! "0002:0001"], "Goap", "ZMNHBA", "Flush 2 relays",
   [[0x2400, 0x2420, 0x2425, 0x2427, 0x6431, 0x4432, 0x3460, 0x2470, 0x2472, 0x2485, 0x2486], [0x1420, 0x2425, 0x4432], [0x1420, 0x2425, 0x4432]]⟩,
  -- qubino_zmnhbd_0_0.json
  ⟨cs! "0159", [cs! "0002:0051"], "Goap", "ZMNHBD", "Flush 2 relays",
   [[0x2400, 0x2420, 0x2425, 0x1427, 0x6431, 0x4432, 0x3460, 0x2470, 0x2472, 0x2485, 0x2486], [0x1420, 0x2425, 0x4432, 0x2485, 0x2486], [0x1420, 0x2425, 0x4432, 0x2485, 0x2486]]⟩,
  -- qubino_zmnhcd_0_0.json
  ⟨cs! "0159", [cs! "0003:0002", cs! "0003:0052"], "Goap", "ZMNHCD", "Flush Shutter",
   [[0x2400, 0x2520, 0x2525, 0x4526, 0x2527, 0x1531, 0x4532, 0x2559, 0x255a, 0x255e, 0x3560, 0x2570, 0x2572, 0x2573, 0x2585, 0x3586, 0x258e], [0x1420, 0x2425, 0x4426, 0x2427, 0x4432, 0x2459, 0x245e, 0x2485, 0x3486, 0x248e], [0x1420, 0x2425, 0x4426, 0x2459, 0x245e, 0x2485, 0x3486, 0x248e]]⟩]

end Verif.Model.Tables
