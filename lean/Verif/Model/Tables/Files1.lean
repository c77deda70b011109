import Verif.Model.Tables.FileRow

/-
Generated by tools/gen_tables.py from the files of /repo/database/json in the order of their names: the
fields the generator of devices.go reads, without the parameters.
-/

namespace Verif.Model.Tables

/-- database/json, files 1-50 -/
def devFiles0 : List DevFile := [
  -- _sensoair_0_0.json
  ⟨cs! "0081", [cs! "00A0:0001"], "SIEGENIA-AUBI KG", "Sensoair", "Air quality sensor for indoor use",
   [[0x2400, 0x2420, 0x4531, 0x2570, 0x2572, 0x1573, 0x2585, 0x2586, 0x259e]]⟩,
  -- _td1311_0_0.json
  ⟨cs! "0068", [cs! "0000:0010"], "Good Way Technology Co., Ltd", "TD1311", "In wall Power Monitor Switch",
   [[0x2400, 0x2420, 0x1425, 0x2427, 0x3460, 0x2470, 0x2472, 0x247a, 0x2486], [0x1420, 0x1425, 0x1432], [0x1420, 0x1425, 0x1432]]⟩,
  -- _vitrumiiieudimmer_0_0.json
  ⟨cs! "010A", [cs! "1100:4B00"], "VDA", "Vitrum III EU Dimmer", "",
   [[0x2400, 0x2420, 0x2526, 0x2527, 0x3560, 0x2572, 0x2577, 0x2585, 0x2586, 0x2587, 0x258e, 0x1591], [0x1420, 0x2426, 0x2472, 0x2486], [0x1420, 0x2426, 0x2472, 0x2486], [0x1420, 0x2426, 0x2472, 0x2486]]⟩,
  -- act_45602_0_0.json
  ⟨cs! "0001", [cs! "4450:3030"], "ACT - Advanced Control Technologies", "45602", "Lamp Module with Dimmer Control",
   [[0x2400, 0x2420, 0x2526, 0x2527, 0x2570, 0x2572, 0x2573, 0x2575, 0x2586]]⟩,
  -- act_zdm230_0_0.json
  ⟨cs! "0001", [cs! "444D:3330"], "ACT - Advanced Control Technologies", "ZDM230", "HomePro Wall Dimmer ZDM230",
   [[0x2520, 0x2526, 0x2527, 0x2570, 0x2572, 0x2573, 0x2585, 0x2586]]⟩,
  -- act_zdp200_0_0.json
  ⟨cs! "0001", [cs! "4450:3030"], "ACT - Advanced Control Technologies", "ZDP200", "HomePro ZDP200 Wall Dimmer",
   [[0x2400, 0x2420, 0x2526, 0x2527, 0x2575]]⟩,
  -- act_zdw103_0_0.json
  ⟨cs! "0001", [cs! "4457:3033"], "ACT - Advanced Control Technologies", "ZDW103", "Wall Mounted 3-Way Dimmer Receiver",
   [[0x2400, 0x2420, 0x2526, 0x2527, 0x2570, 0x2572, 0x2573, 0x2585, 0x2586]]⟩,
  -- act_zdw120_0_0.json
  ⟨cs! "0001", [cs! "4457:3230"], "ACT - Advanced Control Technologies", "ZDW120", "Two Wire Wall Dimer",
   [[0x2400, 0x2420, 0x2526, 0x2527, 0x2570, 0x2572, 0x2573, 0x2585, 0x2586]]⟩,
  -- act_zir010_0_0.json
  ⟨cs! "0001", [cs! "4952:3130"], "ACT - Advanced Control Technologies", "ZIR010", "PIR Motion Sensor",
   [[0x2400, 0x2420, 0x2530, 0x2570, 0x2571, 0x2572, 0x2580, 0x2584, 0x2585, 0x2586]]⟩,
  -- act_zrm230_0_0.json
  ⟨cs! "0001", [cs! "524D:3330"], "ACT - Advanced Control Technologies", "ZRM230", "Wall Switch/Transmitter (2-gang)",
   [[0x2400, 0x2420, 0x2425, 0x1426, 0x2470, 0x2472, 0x2485, 0x2486]]⟩,
  -- act_zrp200_0_0.json
  ⟨cs! "0001", [cs! "7FFF:7FFF"], "ACT - Advanced Control Technologies", "ZRP200", "HomePro Applicance Module ZRP200",
   [[0x2400, 0x2420, 0x2525, 0x2527, 0x2575]]⟩,
  -- act_zrw230_0_0.json
  ⟨cs! "0001", [cs! "5257:3330"], "ACT - Advanced Control Technologies", "ZRW230", "Wall Mounted 3-Way Switch",
   [[0x2400, 0x2420, 0x2525, 0x2527, 0x2570, 0x2572, 0x2573, 0x2585, 0x2586]]⟩,
  -- act_ztm230_0_0.json
  ⟨cs! "0001", [cs! "544D:3330"], "ACT - Advanced Control Technologies", "ZTM230", "Dual paddle wall mounted transmitter",
   [[0x2400, 0x2420, 0x2425, 0x2426, 0x2427, 0x2470, 0x2472, 0x2485, 0x2486, 0x2487]]⟩,
  -- aeon_aeonzw120_0_0.json
  ⟨cs! "0086", [cs! "0002:0078", cs! "0102:0078"], "AEON Labs", "ZW120", "Door/Window sensor Gen5",
   [[0x2400, 0x2420, 0x2430, 0x2470, 0x2471, 0x2472, 0x2480, 0x3484, 0x2485, 0x2486]]⟩,
  -- aeon_dsa03202_0_0.json
  ⟨cs! "0086", [cs! "0001:0003", cs! "0006:0002"], "AEON Labs", "DSA03202", "Minimote 4 button remote control",
   [[0x2400, 0x2420, 0x242b, 0x2470, 0x2472, 0x2484, 0x2486]]⟩,
  -- aeon_dsa38_0_0.json
  ⟨cs! "0086", [cs! "0001:0026"], "AEON Labs", "DSA38", "Panic Button Key Fob",
   [[0x2400, 0x2420, 0x242b, 0x2570, 0x2572, 0x2580, 0x3584, 0x2585, 0x2586]]⟩,
  -- aeon_dsb05_0_0.json
  ⟨cs! "0086", [cs! "0002:0005"], "AEON Labs", "DSB05", "4 in One MultiSensor",
   [[0x2400, 0x2420, 0x2430, 0x6431, 0x2470, 0x2472, 0x2480, 0x3484, 0x2485, 0x2486]]⟩,
  -- aeon_dsb09_0_0.json
  ⟨cs! "0086", [cs! "0002:0009"], "AEON Labs", "DSB09", "Home Energy Meter",
   [[0x2400, 0x2420, 0x3531, 0x3532, 0x3560, 0x2570, 0x2572, 0x2580, 0x2585, 0x2586], [0x1420, 0x3431, 0x3432], [0x1420, 0x3431, 0x3432], [0x1420, 0x3431, 0x3432]]⟩,
  -- aeon_dsb28_0_0.json
  ⟨cs! "0086", [cs! "0002:001C"], "AEON Labs", "DSB28", "Home Energy Meter G2",
   [[0x2400, 0x2420, 0x4432, 0x2456, 0x3460, 0x2470, 0x2472, 0x2485, 0x2486], [0x1420, 0x4432], [0x1420, 0x4432], [0x1420, 0x4432]]⟩,
  -- aeon_dsb29_0_0.json
  ⟨cs! "0086", [cs! "0002:0004", cs! "0002:001D"], "AEON Labs", "DSB29", "Door/Window sensor Gen2",
   [[0x2400, 0x2420, 0x2430, 0x2470, 0x2471, 0x2472, 0x2480, 0x3484, 0x2485, 0x2486]]⟩,
  -- aeon_dsb45_0_0.json
  ⟨cs! "0086", [cs! "0002:002D"], "AEON Labs", "DSB45", "Water Sensor",
   [[0x2400, 0x2420, 0x2430, 0x2470, 0x2471, 0x2472, 0x2480, 0x3484, 0x2485, 0x2486]]⟩,
  -- aeon_dsb54_0_0.json
  ⟨cs! "0086", [cs! "0002:0036"], "AEON Labs", "DSB54", "Recessed Door/Window Sensor",
   [[0x2400, 0x2420, 0x2530, 0x2570, 0x2572, 0x2580, 0x3584, 0x2585, 0x2586]]⟩,
  -- aeon_dsc06_0_0.json
  ⟨cs! "0086", [cs! "0003:0006"], "AEON Labs", "DSC06", "Smart Energy Switch",
   [[0x2400, 0x2420, 0x2425, 0x2427, 0x4431, 0x3432, 0x2470, 0x2472, 0x2485, 0x2486]]⟩,
  -- aeon_dsc08_0_0.json
  ⟨cs! "0086", [cs! "0003:0008"], "AEON Labs", "DSC08", "Smart Energy Illuminator",
   [[0x2400, 0x2420, 0x2426, 0x1427, 0x4431, 0x3432, 0x2470, 0x2472, 0x2485, 0x2486]]⟩,
  -- aeon_dsc10_0_0.json
  ⟨cs! "0086", [cs! "0003:000A"], "AEON Labs", "DSC10", "Heavy Duty Smart Switch",
   [[0x2020, 0x2525, 0x2527, 0x252b, 0x252c, 0x6531, 0x4532, 0x2570, 0x3572, 0x2582, 0x2585, 0x2586]]⟩,
  -- aeon_dsc11_0_0.json
  ⟨cs! "0086", [cs! "0003:000B"], "AEON Labs", "DSC11", "Smart Strip",
   [[0x2400, 0x2420, 0x2425, 0x2427, 0x3432, 0x3460, 0x2470, 0x2472, 0x2485, 0x2486], [0x1420, 0x2425, 0x3432], [0x1420, 0x2425, 0x3432], [0x1420, 0x2425, 0x3432], [0x1420, 0x2425, 0x3432], [0x1420, 0x2425, 0x1432], [0x1420, 0x2425, 0x1432]]⟩,
  -- aeon_dsc12_0_0.json
  ⟨cs! "0086", [cs! "0003:000C"], "AEON Labs", "DSC12", "Micro Smart Energy Switch",
   [[0x2400, 0x2420, 0x2525, 0x2527, 0x4531, 0x3532, 0x2570, 0x2572, 0x2585, 0x2586]]⟩,
  -- aeon_dsc13_0_0.json
  ⟨cs! "0086", [cs! "0003:000D"], "AEON Labs", "DSC13", "Micro Smart Energy Illuminator",
   [[0x2400, 0x1420, 0x2426, 0x2427, 0x4431, 0x3432, 0x2470, 0x2472, 0x2485, 0x2486]]⟩,
  -- aeon_dsc14_0_0.json
  ⟨cs! "0086", [cs! "0003:000E"], "AEON Labs", "DSC14", "Micro Motor Controller",
   [[0x2400, 0x2420, 0x2525, 0x4526, 0x2570, 0x2572, 0x2585, 0x2586]]⟩,
  -- aeon_dsc17_0_0.json
  ⟨cs! "0086", [cs! "0003:0011"], "AEON Labs", "DSC17", "Micro Double Smart Switch",
   [[0x2400, 0x2420, 0x2525, 0x2527, 0x4531, 0x3532, 0x3560, 0x2570, 0x2572, 0x2585, 0x2586], [0x1420, 0x2425], [0x1420, 0x2425]]⟩,
  -- aeon_dsc18_0_0.json
  ⟨cs! "0086", [cs! "0003:0012"], "AEON Labs", "DSC18", "Micro Smart Energy Switch G2",
   [[0x2400, 0x2420, 0x2525, 0x2527, 0x252b, 0x152c, 0x4532, 0x2556, 0x2570, 0x2572, 0x2585, 0x2586]]⟩,
  -- aeon_dsc19_0_0.json
  ⟨cs! "0086", [cs! "0003:0013"], "AEON Labs", "DSC19", "Micro Smart Energy Illuminator G2",
   [[0x2400, 0x2420, 0x3526, 0x2527, 0x252b, 0x152c, 0x4532, 0x2570, 0x2572, 0x2585, 0x2586]]⟩,
  -- aeon_dsc24_0_0.json
  ⟨cs! "0086", [cs! "0003:0018", cs! "0103:004B"], "AEON Labs", "DSC24", "Smart Energy Switch G2",
   [[0x2400, 0x2420, 0x2525, 0x2527, 0x252b, 0x152c, 0x4532, 0x2556, 0x2570, 0x2572, 0x2585, 0x2586]]⟩,
  -- aeon_dsc25_0_0.json
  ⟨cs! "0086", [cs! "0003:0019"], "AEON Labs", "DSC25", "Smart Energy Illuminator G2",
   [[0x1520, 0x1526, 0x1527, 0x152b, 0x152c, 0x1532, 0x1570, 0x1572, 0x1582, 0x1585, 0x1586]]⟩,
  -- aeon_dsc26_0_0.json
  ⟨cs! "0086", [cs! "0003:001A"], "AEON Labs", "DSC26", "Micro Switch G2",
   [[0x2400, 0x2420, 0x2525, 0x2527, 0x252b, 0x152c, 0x2556, 0x2570, 0x2572, 0x2585, 0x2586]]⟩,
  -- aeon_dsc27_0_0.json
  ⟨cs! "0086", [cs! "0003:001B"], "AEON Labs", "DSC27", "Micro Illuminator G2",
   [[0x2400, 0x2420, 0x3526, 0x2527, 0x252b, 0x152c, 0x2570, 0x2572, 0x2585, 0x2586]]⟩,
  -- aeon_dsc35_0_0.json
  ⟨cs! "0086", [cs! "0003:0023"], "AEON Labs", "DSC35", "AEON Labs Micro Double Switch",
   [[0x2400, 0x2420, 0x2525, 0x2527, 0x3560, 0x2570, 0x2572, 0x2585, 0x2586], [0x1420, 0x2425], [0x1420, 0x2425]]⟩,
  -- aeon_dsd31_0_0.json
  ⟨cs! "0086", [cs! "0004:0050"], "AEON Labs", "DSD31", "Outlet Plugable Siren",
   [[0x2400, 0x2420, 0x2525, 0x252b, 0x152c, 0x1559, 0x255e, 0x2570, 0x2572, 0x2573, 0x157a, 0x2585, 0x2586, 0x1598]]⟩,
  -- aeon_dsd37_0_0.json
  ⟨cs! "0086", [cs! "0004:0025", cs! "0019:0004"], "AEON Labs", "DSD37", "Range Extender",
   [[0x2400, 0x2520, 0x2570, 0x2572, 0x2573, 0x2585, 0x2586]]⟩,
  -- aeon_zw056_0_0.json
  ⟨cs! "0086", [cs! "0004:0038", cs! "0104:0038", cs! "0204:0038", cs! "0304:0038", cs! "0904:0038", cs! "0A04:0038", cs! "1A04:0038", cs! "1D04:0038"], "AEON Labs", "ZW056", "Doorbell",
   [[0x2400, 0x2420, 0x2525, 0x1559, 0x255a, 0x255e, 0x2570, 0x2572, 0x2573, 0x157a, 0x2585, 0x2586, 0x1598]]⟩,
  -- aeon_zw062_0_0.json
  ⟨cs! "0086", [cs! "0003:003E", cs! "0103:003E", cs! "0203:003E"], "AEON Labs", "ZW062", "Aeon Labs Garage Door Controller  Gen5 ",
   [[0x2400, 0x2420, 0x2425, 0x2066, 0x2470, 0x2472, 0x2485, 0x2486]]⟩,
  -- aeon_zw074_0_0.json
  ⟨cs! "0086", [cs! "0002:004A", cs! "0102:004A", cs! "0202:004A"], "AEON Labs", "ZW074", "4 in One MultiSensor (G5)",
   [[0x2400, 0x2420, 0x2430, 0x6431, 0x2470, 0x2471, 0x2472, 0x2480, 0x3484, 0x2485, 0x2486]]⟩,
  -- aeon_zw075_0_0.json
  ⟨cs! "0086", [cs! "0003:004B", cs! "0203:004B"], "AEON Labs", "ZW075", "Smart Energy Switch 3rd Edition",
   [[0x2400, 0x2420, 0x1422, 0x2425, 0x1427, 0x242b, 0x1430, 0x4432, 0x2456, 0x1059, 0x2470, 0x2472, 0x1484, 0x2485, 0x2486]]⟩,
  -- aeon_zw078_0_0.json
  ⟨cs! "0086", [cs! "0003:004E", cs! "0103:004E", cs! "0203:004E"], "AEON Labs", "ZW078", "Heavy Duty Switch",
   [[0x2520, 0x2525, 0x2527, 0x252b, 0x252c, 0x6531, 0x4532, 0x2756, 0x2559, 0x275a, 0x375e, 0x2570, 0x3772, 0x2573, 0x2782, 0x3585, 0x3786, 0x20ef]]⟩,
  -- aeon_zw080_0_0.json
  ⟨cs! "0086", [cs! "0004:0050", cs! "0104:0050", cs! "0204:0050"], "AEON Labs", "ZW080", "Siren Gen5",
   [[0x2400, 0x2420, 0x2525, 0x252b, 0x152c, 0x1559, 0x255e, 0x2570, 0x2572, 0x2573, 0x157a, 0x2585, 0x2586, 0x1598]]⟩,
  -- aeon_zw088_1_0.json
  ⟨cs! "0086", [cs! "0001:0058", cs! "0101:0058", cs! "0201:0058"], "AEON Labs", "ZW088", "4 button keyfob - Gen 5",
   [[0x1400, 0x1420, 0x142b, 0x1559, 0x155a, 0x155e, 0x1570, 0x1572, 0x1573, 0x1580, 0x1584, 0x1585, 0x1586]]⟩,
  -- aeon_zw089_0_0.json
  ⟨cs! "0086", [cs! "0002:0059", cs! "0102:0059", cs! "0202:0059"], "AEON Labs", "ZW089", "Recessed Door Sensor Gen5",
   [[0x2400, 0x2420, 0x2430, 0x2470, 0x2471, 0x2472, 0x2480, 0x3484, 0x2485, 0x2486]]⟩,
  -- aeon_zw095_0_0.json
  ⟨cs! "0086", [cs! "0002:005F", cs! "0102:005F"], "AEON Labs", "ZW095", "Home Energy Meter - Gen 5 ",
   [[0x2420, 0x4732, 0x2756, 0x2759, 0x265a, 0x355e, 0x4760, 0x2770, 0x3772, 0x2773, 0x377a, 0x3785, 0x3786, 0x378e, 0x2598, 0x25ef], [0x1420, 0x4432], [0x1420, 0x4432], [0x1420, 0x1432]]⟩,
  -- aeon_zw096_0_0.json
  ⟨cs! "0086", [cs! "0003:0060", cs! "0103:0060", cs! "0203:0060", cs! "1D03:0060"], "AEON Labs", "ZW096", "Smart Switch 6",
   [[0x2400, 0x2420, 0x2425, 0x2427, 0x4432, 0x2033, 0x2470, 0x2472, 0x2485, 0x2486]]⟩,
  -- aeon_zw097_0_0.json
  ⟨cs! "0086", [cs! "0002:0061", cs! "0102:0061", cs! "0202:0061"], "AEON Labs", "ZW097", "Dry Contact Sensor",
   [[0x2400, 0x2620, 0x2630, 0x2759, 0x355e, 0x2670, 0x4771, 0x3572, 0x2673, 0x367a, 0x2680, 0x2582, 0x3684, 0x3785, 0x3486, 0x24ef]]⟩]

/-- database/json, files 51-100 -/
def devFiles1 : List DevFile := [
  -- aeon_zw098_0_0.json
  ⟨cs! "0086", [cs! "0003:0062", cs! "0103:0062", cs! "0203:0062"], "AEON Labs", "ZW098", "LED Bulb",
   [[0x2400, 0x2420, 0x3426, 0x1427, 0x242b, 0x1432, 0x3433, 0x2470, 0x2472, 0x2485, 0x2486]]⟩,
  -- aeon_zw099_0_0.json
  ⟨cs! "0086", [cs! "0003:0063", cs! "0103:0063", cs! "0203:0063", cs! "1D03:0063"], "AEON Labs", "ZW099", "Smart Dimmer 6",
   [[0x2400, 0x2420, 0x3726, 0x2727, 0x4732, 0x2733, 0x2759, 0x275a, 0x375e, 0x5760, 0x2770, 0x3772, 0x2773, 0x377a, 0x2781, 0x2782, 0x3785, 0x3786, 0x478e, 0x2398, 0x27ef]]⟩,
  -- aeon_zw100_0_0.json
  ⟨cs! "0086", [cs! "0002:0064", cs! "0102:0064", cs! "0202:0064"], "AEON Labs", "ZW100", "MultiSensor 6",
   [[0x2400, 0x2420, 0x2430, 0x6431, 0x2470, 0x4471, 0x2472, 0x2480, 0x3484, 0x2485, 0x2486]]⟩,
  -- aeon_zw100_1_7.json
  ⟨cs! "0086", [cs! "0002:0064", cs! "0102:0064", cs! "0202:0064"], "AEON Labs", "ZW100", "MultiSensor 6",
   [[0x2400, 0x2420, 0x2430, 0x6431, 0x2470, 0x2471, 0x2472, 0x2480, 0x3484, 0x2485, 0x2486]]⟩,
  -- aeon_zw100_1_8.json
  ⟨cs! "0086", [cs! "0002:0064", cs! "0102:0064", cs! "0202:0064"], "AEON Labs", "ZW100", "MultiSensor 6",
   [[0x2400, 0x2420, 0x2530, 0x6531, 0x2559, 0x255a, 0x255e, 0x2570, 0x4571, 0x2572, 0x2573, 0x257a, 0x2580, 0x3584, 0x2585, 0x2586]]⟩,
  -- aeon_zw111_0_0.json
  ⟨cs! "0086", [cs! "0103:006F", cs! "0203:006F"], "AEON Labs", "ZW111", "Nano Dimmer ",
   [[0x2400, 0x2420, 0x2525, 0x4526, 0x2527, 0x252b, 0x252c, 0x4532, 0x2559, 0x255a, 0x355e, 0x2570, 0x5571, 0x3572, 0x2573, 0x457a, 0x2581, 0x1082, 0x3585, 0x3586]]⟩,
  -- aeon_zw112_0_0.json
  ⟨cs! "0086", [cs! "0002:0070", cs! "0102:0070", cs! "0202:0070", cs! "1D02:0070"], "AEON Labs", "ZW112", "Door/Window Sensor 6",
   [[0x2520, 0x2530, 0x1559, 0x155a, 0x155e, 0x2570, 0x2571, 0x2572, 0x1573, 0x357a, 0x2580, 0x3584, 0x2585, 0x2586, 0x1798]]⟩,
  -- aeon_zw117_0_0.json
  ⟨cs! "0086", [cs! "0004:0075"], "AEON Labs", "ZW117", "Range Extender 6",
   [[0x2400, 0x2420, 0x3526, 0x2533, 0x2559, 0x275a, 0x275e, 0x2570, 0x2772, 0x2573, 0x257a, 0x3585, 0x3786]]⟩,
  -- aeon_zw130_0_0.json
  ⟨cs! "0086", [cs! "0002:0082", cs! "0102:0082", cs! "0202:0082"], "AEON Labs", "ZW130", "WallMote Quad",
   [[0x2400, 0x2420, 0x2559, 0x255a, 0x355b, 0x255e, 0x3560, 0x2570, 0x5571, 0x2572, 0x2573, 0x257a, 0x2580, 0x3584, 0x3585, 0x3586, 0x458e], [0x1420, 0x2459, 0x345b, 0x245e, 0x3485, 0x448e], [0x1420, 0x2459, 0x345b, 0x245e, 0x3485, 0x448e], [0x1420, 0x2459, 0x345b, 0x245e, 0x3485, 0x448e], [0x1420, 0x2459, 0x345b, 0x245e, 0x3485, 0x448e]]⟩,
  -- amc_zdsud10_0_0.json
  ⟨cs! "0111", [cs! "8200:0200"], "Airline Mechanical Co., Ltd.", "ZDS-UD10", "Dimming Switch Module",
   [[0x2500, 0x2520, 0x3526, 0x2527, 0x2572, 0x2573, 0x2586]]⟩,
  -- benext_benextalarmsound_0_0.json
  ⟨cs! "008A", [cs! "0005:0101"], "BeNext", "BeNext Alarm Sound", "Alarm sound",
   [[0x2400, 0x2420, 0x2525, 0x2570, 0x2571, 0x2572, 0x2573, 0x2585, 0x2586, 0x258f]]⟩,
  -- benext_builtindimmer_0_0.json
  ⟨cs! "008A", [cs! "000D:0100"], "BeNext", "builtInDimmer", "BeNext Built-in Dimmer",
   [[0x2400, 0x2420, 0x2426, 0x6431, 0x3432, 0x2470, 0x2472, 0x2485, 0x2486]]⟩,
  -- benext_doorsensor_0_0.json
  ⟨cs! "008A", [cs! "0004:0100", cs! "0004:0101"], "BeNext", "doorSensor", "BeNext Door Sensor",
   [[0x2400, 0x2420, 0x2530, 0x2531, 0x2570, 0x2571, 0x2572, 0x2580, 0x2584, 0x2585, 0x2586]]⟩,
  -- benext_energyswitch_0_0.json
  ⟨cs! "008A", [cs! "0020:0001"], "BeNext", "Energy Switch +", "Energy Switch +",
   [[0x2425, 0x2427, 0x4432, 0x2456, 0x2470, 0x2472, 0x2473, 0x2475, 0x2485, 0x2486]]⟩,
  -- benext_heatingcontrol_0_0.json
  ⟨cs! "008A", [cs! "0021:0102"], "BeNext", "Heating Control", "Thermostat for controlling the opentherm protocol",
   [[0x2420, 0x7431, 0x2440, 0x2443, 0x2456, 0x2472, 0x407a, 0x3485, 0x2486]]⟩,
  -- benext_molite_0_0.json
  ⟨cs! "008A", [cs! "0003:0101", cs! "0003:0100"], "BeNext", "Molite", "Movement sensor with temperature and light sensor",
   [[0x2400, 0x2420, 0x2430, 0x6431, 0x2470, 0x2471, 0x2472, 0x2480, 0x2484, 0x2485, 0x2486]]⟩,
  -- benext_p1dongle_0_0.json
  ⟨cs! "008A", [cs! "002F:0100"], "BeNext", "P1-dongle", "P1-dongle",
   [[0x4532, 0x2556, 0x1559, 0x255a, 0x255e, 0x3560, 0x2570, 0x2572, 0x157a, 0x2585, 0x2586, 0x1598], [0x4432], [0x4432], [0x4432]]⟩,
  -- benext_plugindimmer_0_0.json
  ⟨cs! "008A", [cs! "0018:0100"], "BeNext", "plugInDimmer", "BeNext Plug-in Dimmer",
   [[0x2400, 0x2420, 0x2526, 0x2527, 0x6531, 0x3532, 0x2570, 0x2572, 0x2573, 0x2585, 0x2586]]⟩,
  -- benext_powerswitch_0_0.json
  ⟨cs! "008A", [cs! "0008:0101"], "BeNext", "powerSwitch", "BeNext Power Switch EU",
   [[0x2400, 0x2420, 0x2525, 0x2527, 0x2570, 0x2572, 0x2573, 0x2575, 0x2585, 0x2586]]⟩,
  -- benext_tagreader_0_0.json
  ⟨cs! "008A", [cs! "0007:0101"], "BeNext", "Tag Reader", "Tag Reader",
   [[0x2400, 0x2420, 0x2525, 0x2563, 0x2570, 0x3571, 0x2572, 0x2476, 0x2580, 0x2584, 0x2585, 0x2586]]⟩,
  -- bonig_pope005206_0_0.json
  ⟨cs! "0169", [cs! "0001:0001"], "Bönig und Kallenbach oHG", "POPE005206", "Z Weather",
   [[0x2400, 0x2420, 0x1430, 0x7531, 0x4532, 0x2559, 0x145a, 0x255e, 0x2570, 0x2572, 0x2573, 0x2580, 0x3584, 0x2585, 0x2586, 0x2589, 0x158e, 0x258f, 0x159b]]⟩,
  -- brk_zcombo_0_0.json
  ⟨cs! "0138", [cs! "0001:0002"], "BRK Brands, Inc.", "ZCOMBO", "Smoke and Carbon Monoxide Alarm",
   [[0x2400, 0x2420, 0x2470, 0x2471, 0x2472, 0x2480, 0x2485, 0x2486]]⟩,
  -- brk_zsmoke_0_0.json
  ⟨cs! "0138", [cs! "0001:0001"], "BRK Brands, Inc.", "ZSMOKE", "Smoke Alarm",
   [[0x2400, 0x2420, 0x2470, 0x2471, 0x2472, 0x2480, 0x2485, 0x2486]]⟩,
  -- cbcc_swzcs1_0_0.json
  ⟨cs! "0166", [cs! "0100:0100"], "CBCC Domotique SAS", "SW-ZCS-1", "Cord Switch",
   [[0x2400, 0x2420, 0x2525, 0x2527, 0x2572, 0x2585, 0x2586]]⟩,
  -- chromagic_hsm02_0_0.json
  ⟨cs! "0116", [cs! "0002:0001"], "Chromagic Technologies Corporation", "HSM02", "Door Window Sensor",
   [[0x2400, 0x2520, 0x2530, 0x2570, 0x2571, 0x2572, 0x2580, 0x2584, 0x2585, 0x2586]]⟩,
  -- chromagic_sm103_0_0.json
  ⟨cs! "0116", [cs! "0001:0001"], "Chromagic Technologies Corporation", "SM103", "Door/Window Contact",
   [[0x2400, 0x2520, 0x2530, 0x2570, 0x2571, 0x2572, 0x2580, 0x2584, 0x2585, 0x2586]]⟩,
  -- cloud_a803n_0_0.json
  ⟨cs! "0200", [cs! "0003:0002"], "Cloud Media", "A803N", "Motion Sensor",
   [[0x2400, 0x2420, 0x3430, 0x6431, 0x2470, 0x2471, 0x2472, 0x2480, 0x3484, 0x2485, 0x2486]]⟩,
  -- connecthome_ch201_0_0.json
  ⟨cs! "0179", [cs! "0013:0021"], "ConnectHome", "CH-201", "CH-201 Thermostat",
   [[0x2400, 0x2420, 0x5531, 0x2540, 0x2542, 0x2543, 0x3560, 0x2570, 0x2572, 0x257a, 0x2585, 0x2586, 0x358e], [0x1420, 0x5431, 0x2440, 0x2442, 0x2443], [0x1420, 0x5431]]⟩,
  -- cooper_rf9500_0_0.json
  ⟨cs! "001A", [cs! "5342:0000"], "Cooper Wiring Devices", "RF9500", "Battery Switch",
   [[0x2400, 0x2420, 0x2472, 0x2477, 0x2485, 0x2486]]⟩,
  -- cooper_rf9501_0_0.json
  ⟨cs! "001A", [cs! "534C:0000"], "Cooper Wiring Devices", "RF9501", "15A Light Switch",
   [[0x2400, 0x2420, 0x2425, 0x2427, 0x242b, 0x2470, 0x2471, 0x2472, 0x2477, 0x2482, 0x2485, 0x2486, 0x2487]]⟩,
  -- cooper_rf9517_0_0.json
  ⟨cs! "001A", [cs! "5352:0000"], "Cooper Wiring Devices", "RF9517", "Accessory Switch",
   [[0x2400, 0x2520, 0x2425, 0x2427, 0x242b, 0x2470, 0x2472, 0x2477, 0x2485, 0x2486, 0x2487]]⟩,
  -- cooper_rf9534ws_0_0.json
  ⟨cs! "001A", [cs! "4449:0002"], "Cooper Wiring Devices", "RF9534WS", "Smart Dimmer",
   [[0x2400, 0x2420, 0x3526, 0x2527, 0x252b, 0x252c, 0x2570, 0x2571, 0x2572, 0x2573, 0x2575, 0x2577, 0x2582, 0x2585, 0x2586, 0x2587]]⟩,
  -- cooper_rf9540n_0_0.json
  ⟨cs! "001A", [cs! "4449:0101"], "Cooper Wiring Devices", "RF9540-N", "All Load Dimmer Light Switch",
   [[0x2400, 0x2420, 0x3526, 0x2527, 0x252b, 0x152c, 0x2570, 0x2571, 0x2572, 0x2573, 0x2575, 0x2577, 0x2582, 0x2585, 0x2586, 0x2587]]⟩,
  -- cooper_rf9542_0_0.json
  ⟨cs! "001A", [cs! "4441:0000"], "Cooper Wiring Devices", "RF9542", "Dimmer Accessory Switch",
   [[0x2400, 0x2420, 0x3526, 0x2527, 0x252b, 0x152c, 0x2570, 0x2571, 0x2572, 0x2573, 0x2575, 0x2577, 0x2585, 0x2586, 0x2587]]⟩,
  -- cooper_rftr9505_0_0.json
  ⟨cs! "001A", [cs! "5244:0000"], "Cooper Wiring Devices", "RFTR9505", "Duplex receptical",
   [[0x2400, 0x2420, 0x2425, 0x2427, 0x242b, 0x2470, 0x2471, 0x2472, 0x2477, 0x2482, 0x2485, 0x2486, 0x2487]]⟩,
  -- cooper_rfwc5_0_0.json
  ⟨cs! "001A", [cs! "574D:0000"], "Cooper Wiring Devices", "RFWC5", "5-Scene Keypad",
   [[0x2400, 0x2420, 0x1521, 0x2522, 0x142b, 0x152d, 0x2570, 0x2572, 0x2577, 0x2585, 0x2586, 0x2587]]⟩,
  -- coqon_psmz0001_0_0.json
  ⟨cs! "0248", [cs! "0003:0001"], "Coqon", "PSMZ0001", "Plug module",
   [[0x2420, 0x2425, 0x3432, 0x2459, 0x245a, 0x245e, 0x2470, 0x2472, 0x2473, 0x247a, 0x2485, 0x2486]]⟩,
  -- danfoss_010101_0_0.json
  ⟨cs! "0002", [cs! "0115:A010"], "Danfoss", "010101", "Popp Wireless Thermostatic Valve TRV",
   [[0x2400, 0x2420, 0x7531, 0x2543, 0x2546, 0x2572, 0x3575, 0x2580, 0x2581, 0x3584, 0x2586, 0x258f]]⟩,
  -- danfoss_014g0160_0_0.json
  ⟨cs! "0002", [cs! "0003:8010"], "Danfoss", "014G0160", "Z-Wave room sensor",
   [[0x2400, 0x2420, 0x6431, 0x3443, 0x2470, 0x2472, 0x2480, 0x3484, 0x2486, 0x2487, 0x248f]]⟩,
  -- danfoss_dthermz5_0_0.json
  ⟨cs! "0002", [cs! "0248:A020"], "Danfoss", "DTHERMZ5", "Z-Wave room sensor",
   [[0x2400, 0x2520, 0x7531, 0x2543, 0x2553, 0x255b, 0x2570, 0x2572, 0x3575, 0x2580, 0x3584, 0x3586, 0x2587, 0x258f]]⟩,
  -- danfoss_dthermz6_0_0.json
  ⟨cs! "0002", [cs! "0248:A010"], "Danfoss", "DTHERMZ6", "Living Connect Z Thermostat",
   [[0x2400, 0x2420, 0x7531, 0x2543, 0x2546, 0x2572, 0x3575, 0x2580, 0x2581, 0x3584, 0x2586, 0x258f]]⟩,
  -- danfoss_lc13_0_0.json
  ⟨cs! "0002", [cs! "0005:0004", cs! "8005:0001", cs! "8005:0002"], "Danfoss", "LC-13", "Living Connect Z Thermostat",
   [[0x2400, 0x2420, 0x3443, 0x2472, 0x1575, 0x2480, 0x1481, 0x3484, 0x2486, 0x248f, 0x149c]]⟩,
  -- danfoss_lcz251_0_0.json
  ⟨cs! "0002", [cs! "0005:0003"], "Danfoss", "LCZ251", "Living Connect Z Thermostat 2.51",
   [[0x2400, 0x2420, 0x3443, 0x2472, 0x2480, 0x3484, 0x2486, 0x248f]]⟩,
  -- danfoss_mt02650_0_0.json
  ⟨cs! "0002", [cs! "0005:0175"], "Danfoss", "MT02650", "Devolo Thermostat (09356)",
   [[0x2500, 0x2520, 0x6531, 0x3543, 0x1556, 0x2572, 0x3575, 0x2580, 0x3584, 0x2586, 0x258f]]⟩,
  -- devolo_mt02646_0_0.json
  ⟨cs! "0175", [cs! "0001:0011"], "Devolo", "MT02646", "Home Control Metering Plug",
   [[0x2400, 0x2520, 0x2525, 0x2527, 0x4532, 0x2559, 0x255a, 0x355e, 0x2570, 0x2571, 0x3572, 0x2573, 0x3575, 0x357a, 0x3585, 0x3586, 0x2598]]⟩,
  -- devolo_mt02647_0_0.json
  ⟨cs! "0175", [cs! "0002:000D"], "Devolo", "MT02647", "Devolo Motion Sensor",
   [[0x2400, 0x2420, 0x3430, 0x6431, 0x2462, 0x2463, 0x2470, 0x2471, 0x2672, 0x2475, 0x2476, 0x2480, 0x3484, 0x2485, 0x2486, 0x248f, 0x2498]]⟩,
  -- devolo_mt02648_0_0.json
  ⟨cs! "0175", [cs! "0002:000E"], "Devolo", "MT02648", "Door/Window Contact",
   [[0x2400, 0x2420, 0x3530, 0x6531, 0x1559, 0x255a, 0x255e, 0x2570, 0x4571, 0x2572, 0x2573, 0x157a, 0x2580, 0x3584, 0x2585, 0x2586, 0x258f, 0x1598]]⟩,
  -- devolo_mt2652_0_0.json
  ⟨cs! "0175", [cs! "0100:0101"], "Devolo", "MT2652", "Scene Switch",
   [[0x2400, 0x2420, 0x252d, 0x2559, 0x255a, 0x255b, 0x255e, 0x2570, 0x2572, 0x2573, 0x2580, 0x3584, 0x2585, 0x3586, 0x258e, 0x258f]]⟩,
  -- devolo_mt2653_0_0.json
  ⟨cs! "0175", [cs! "0100:0102"], "Devolo", "MT2653", "Keyfob",
   [[0x2400, 0x2420, 0x152d, 0x1559, 0x255a, 0x255b, 0x255e, 0x2570, 0x2572, 0x2573, 0x2580, 0x3584, 0x2585, 0x2586, 0x158e, 0x258f]]⟩,
  -- devolo_mt2755_0_0.json
  ⟨cs! "0175", [cs! "0002:0020"], "Devolo", "MT02755", "Humidity Sensor",
   [[0x2400, 0x2420, 0x3530, 0x6531, 0x2559, 0x255a, 0x255e, 0x2570, 0x5571, 0x2572, 0x2573, 0x257a, 0x2580, 0x3584, 0x3585, 0x3586, 0x258f, 0x1598]]⟩]

/-- database/json, files 101-150 -/
def devFiles2 : List DevFile := [
  -- devolo_mt2756_0_0.json
  ⟨cs! "0175", [cs! "0002:0021"], "Devolo", "MT2756", "Devolo MT2756 Flood Sensor",
   [[0x2400, 0x2420, 0x1430, 0x2559, 0x255a, 0x255e, 0x2572, 0x2573, 0x257a, 0x1485, 0x3586, 0x258f, 0x1598]]⟩,
  -- devolo_pan11_0_0.json
  ⟨cs! "0175", [cs! "0001:0001"], "Devolo", "PAN11", "Smart Energy Plug-in Switch",
   [[0x2400, 0x2520, 0x2525, 0x2527, 0x4532, 0x2570, 0x2572, 0x2585, 0x2586]]⟩,
  -- devolo_phpse02_0_0.json
  ⟨cs! "0175", [cs! "0004:000A"], "Devolo", "ph-pse02", "Multisound indoor siren (Zipato/Devolo)",
   [[0x2400, 0x2420, 0x2425, 0x1026, 0x3430, 0x2459, 0x245a, 0x245e, 0x2470, 0x5471, 0x2472, 0x2473, 0x247a, 0x3485, 0x3486]]⟩,
  -- devolo_pst021b_0_0.json
  ⟨cs! "0175", [cs! "0002:0018"], "Devolo", "PST02-1B", "Multisensor",
   [[0x2400, 0x2420, 0x3530, 0x6531, 0x2470, 0x2472, 0x2480, 0x3484, 0x3485, 0x2486]]⟩,
  -- dlink_dchz110_0_0.json
  ⟨cs! "0108", [cs! "0002:000E"], "D-Link", "DCH-Z110", "Door & Window Sensor",
   [[0x2400, 0x2420, 0x3530, 0x6531, 0x1559, 0x255a, 0x255e, 0x2570, 0x5571, 0x2572, 0x2573, 0x157a, 0x2580, 0x3584, 0x2585, 0x2586, 0x258f, 0x1598]]⟩,
  -- dlink_dchz120_0_0.json
  ⟨cs! "0108", [cs! "0002:000D"], "D-Link", "DCH-Z120", "Battery Motion Sensor",
   [[0x2400, 0x2420, 0x3530, 0x6531, 0x2570, 0x5571, 0x2472, 0x2580, 0x3584, 0x2585, 0x2586, 0x258f]]⟩,
  -- dlink_dchz510_0_0.json
  ⟨cs! "0108", [cs! "0004:000A"], "D-Link", "DCH-Z510", "Siren",
   [[0x2400, 0x2420, 0x2425, 0x2559, 0x255a, 0x255e, 0x1470, 0x4071, 0x2572, 0x2573, 0x357a, 0x2586, 0x1598]]⟩,
  -- domitech_zb22_0_0.json
  ⟨cs! "020E", [cs! "4C42:3135"], "Domitech Products, LLC", "ZB22", "Smart LED Light Bulb",
   [[0x2400, 0x2420, 0x1422, 0x2526, 0x2527, 0x2559, 0x155a, 0x255e, 0x2570, 0x2572, 0x2573, 0x157a, 0x2585, 0x2586]]⟩,
  -- domitech_ze27_0_0.json
  ⟨cs! "020E", [cs! "4754:3038", cs! "4C42:3134", cs! "4C42:3135"], "Domitech Products, LLC", "DTA19", "Smart LED Light",
   [[0x2400, 0x2420, 0x2426, 0x1427, 0x2470, 0x2472, 0x2485, 0x2486]]⟩,
  -- dragontech_pa100_0_0.json
  ⟨cs! "0184", [cs! "4447:3031"], "Dragon Tech Industrial, Ltd.", "PA-100", "Plug-in On/Off Switch",
   [[0x2400, 0x2420, 0x2525, 0x2527, 0x2559, 0x255a, 0x255e, 0x2570, 0x2572, 0x2573, 0x257a, 0x3585, 0x3586]]⟩,
  -- dragontech_wd100_0_0.json
  ⟨cs! "0184", [cs! "4447:3034", cs! "4744:3032"], "Dragon Tech Industrial, Ltd.", "WD-100", "Wall Dimmer Switch",
   [[0x2400, 0x2420, 0x2526, 0x2527, 0x2559, 0x255a, 0x245b, 0x255e, 0x2570, 0x2572, 0x2573, 0x257a, 0x2585, 0x2586]]⟩,
  -- dragontech_ws100_0_0.json
  ⟨cs! "0184", [cs! "4447:3033"], "Dragon Tech Industrial, Ltd.", "WS-100", "Wall On/Off Switch",
   [[0x2400, 0x2420, 0x2525, 0x2527, 0x1559, 0x255a, 0x245b, 0x255e, 0x2570, 0x2572, 0x2573, 0x157a, 0x2585, 0x2586]]⟩,
  -- eco_dwzwave2_0_0.json
  ⟨cs! "014A", [cs! "0001:0002", cs! "0004:0002"], "Ecolink", "DWZWAVE2", "Z-Wave Door/Window Sensor",
   [[0x2400, 0x2420, 0x2430, 0x2470, 0x3471, 0x3472, 0x2480, 0x3484, 0x3485, 0x3486]]⟩,
  -- eco_ecolinkpirv25_0_0.json
  ⟨cs! "014A", [cs! "0004:0001"], "Ecolink", "Ecolink PIR v2.5", "Z-Wave PIR Motion Sensor v2.5",
   [[0x2400, 0x2420, 0x3430, 0x2459, 0x145a, 0x245e, 0x2470, 0x6471, 0x2472, 0x2473, 0x2480, 0x3484, 0x3485, 0x3486]]⟩,
  -- eco_pir1_0_0.json
  ⟨cs! "014A", [cs! "0001:0001"], "Ecolink", "Ecolink PIR", "Z-Wave PIR Motion Sensor",
   [[0x2400, 0x2420, 0x2430, 0x2470, 0x2471, 0x2472, 0x2480, 0x3484, 0x2485, 0x2486]]⟩,
  -- eco_tiltzwave25eco_0_0.json
  ⟨cs! "014A", [cs! "0004:0003"], "Ecolink", "TILT-ZWAVE2.5-ECO", "Z-wave Plus Gold Plated Reliability Garage Door Tilt Sensor",
   [[0x2400, 0x2420, 0x3530, 0x2559, 0x145a, 0x255e, 0x2570, 0x6571, 0x2572, 0x2573, 0x2580, 0x3584, 0x3585, 0x3586]]⟩,
  -- eco_tiltzwave2_0_0.json
  ⟨cs! "014A", [cs! "0001:0003"], "Ecolink", "TILTZWAVE2", "Z-Wave Garage Door Sensor",
   [[0x2400, 0x2420, 0x2430, 0x2470, 0x2471, 0x2472, 0x2480, 0x3484, 0x2485, 0x2486]]⟩,
  -- econet_ebv105_0_0.json
  ⟨cs! "0157", [cs! "0003:0512"], "EcoNet Controls", "EBV-105", "Wireless Water Shutoff Valve",
   [[0x2400, 0x2420, 0x2425, 0x2427, 0x2472, 0x2485, 0x2486]]⟩,
  -- econet_ev100_0_0.json
  ⟨cs! "0157", [cs! "0100:0100"], "EcoNet Controls", "EV100", "Z-Vent ZWave Controlled HVAC Air Register",
   [[0x2400, 0x2520, 0x4526, 0x2572, 0x1577, 0x1580, 0x2586]]⟩,
  -- econet_gr105n_0_0.json
  ⟨cs! "0157", [cs! "0003:0002"], "EcoNet Controls", "GR-105N", "Z-Wave Motor for water/gas ball valves",
   [[0x2400, 0x2520, 0x2525, 0x2527, 0x2559, 0x145a, 0x255e, 0x1570, 0x2572, 0x2573, 0x3585, 0x3586]]⟩,
  -- elexa_dms01_0_0.json
  ⟨cs! "021F", [cs! "0003:0088"], "Elexa Consumer Products Inc.", "DMS01", "Dome Wireless Siren",
   [[0x2400, 0x2420, 0x2525, 0x2559, 0x255a, 0x255e, 0x2570, 0x7571, 0x2572, 0x2573, 0x2580, 0x3585, 0x3586, 0x2587]]⟩,
  -- elexa_dms01domewirelesssiren_0_0.json
  ⟨cs! "021F", [cs! "0003:0088"], "Elexa Consumer Products Inc.", "DMS01 Dome Wireless Siren", "Dome Wireless Z-Wave Plus Siren, Battery Powered with Adjustable Volume Level and Ten Selectable Tones",
   [[0x2400, 0x2420, 0x2525, 0x2559, 0x255a, 0x255e, 0x2570, 0x7571, 0x2572, 0x2573, 0x2580, 0x3585, 0x3586, 0x2587]]⟩,
  -- enerwave_enerwavezw15s_0_0.json
  ⟨cs! "011A", [cs! "0101:0102"], "Wenzhou MTLC Electric Appliances Co.,Ltd.", "Enerwave ZW15S", "Enerwave ZW15S Binary Switch",
   [[0x2400, 0x2420, 0x2525, 0x2527, 0x2570, 0x2572, 0x2585, 0x2586], []]⟩,
  -- enerwave_zw15r_0_0.json
  ⟨cs! "011A", [cs! "0101:0103"], "Wenzhou MTLC Electric Appliances Co.,Ltd.", "ZW15R ", "Duplex receptacle",
   [[0x2400, 0x2420, 0x2425, 0x2427, 0x2470, 0x2472, 0x2485, 0x2486]]⟩,
  -- enerwave_zw20r_0_0.json
  ⟨cs! "011A", [cs! "0101:0603"], "Wenzhou MTLC Electric Appliances Co.,Ltd.", "ZW20R", "20A Tamper Resistant Duplex Receptacle",
   [[0x2400, 0x2420, 0x2425, 0x2427, 0x2470, 0x2472, 0x2486], [0x2025], [0x2025]]⟩,
  -- enerwave_zw20rm_0_0.json
  ⟨cs! "011A", [cs! "0111:0101"], "Wenzhou MTLC Electric Appliances Co.,Ltd.", "ZW20RM", "In-wall Smart Meter  Duplex Receptacle",
   [[0x2400, 0x2420, 0x2526, 0x2527, 0x3531, 0x3532, 0x2570, 0x2572, 0x2585, 0x2586]]⟩,
  -- enerwave_zw500d_0_0.json
  ⟨cs! "011A", [cs! "0102:0201"], "Wenzhou MTLC Electric Appliances Co.,Ltd.", "ZW500D", "Dimmer",
   [[0x2400, 0x2420, 0x3426, 0x2427, 0x2470, 0x2472, 0x2485, 0x2486]]⟩,
  -- enerwave_zw500dm_0_0.json
  ⟨cs! "011A", [cs! "0111:0201"], "Wenzhou MTLC Electric Appliances Co.,Ltd.", "ZW500DM", "In-wall Smart Meter Dimmer Switch",
   [[0x2400, 0x2420, 0x2525, 0x2527, 0x3531, 0x3532, 0x2570, 0x2572, 0x2585, 0x2586]]⟩,
  -- enerwave_zwmrsm1_0_0.json
  ⟨cs! "011A", [cs! "0111:0605"], "Wenzhou MTLC Electric Appliances Co.,Ltd.", "ZWM-RSM1", "Smart Single Relay Switch Module",
   [[0x2400, 0x2520, 0x2525, 0x2527, 0x2559, 0x255a, 0x255e, 0x2572, 0x2573, 0x3585, 0x3586]]⟩,
  -- enerwave_zwn333_0_0.json
  ⟨cs! "011A", [cs! "0101:0104"], "Wenzhou MTLC Electric Appliances Co.,Ltd.", "ZWN-333", "Plug-in Appliance Module",
   [[0x2400, 0x2420, 0x2525, 0x2527, 0x2572, 0x2586]]⟩,
  -- enerwave_zwnbpc_0_0.json
  ⟨cs! "011A", [cs! "0601:0901"], "Wenzhou MTLC Electric Appliances Co.,Ltd.", "ZWN-BPC", "PIR Sensor",
   [[0x2400, 0x2420, 0x2430, 0x2470, 0x2472, 0x2480, 0x3484, 0x2485, 0x2486]]⟩,
  -- enerwave_zwnrsm1plus_0_0.json
  ⟨cs! "011A", [cs! "0101:5605"], "Wenzhou MTLC Electric Appliances Co.,Ltd.", "ZWN-RSM1-PLUS", "Smart Relay Switch Module",
   [[0x2400, 0x2520, 0x2525, 0x2527, 0x2570, 0x2572, 0x3585, 0x3586]]⟩,
  -- enerwave_zwnrsm2_0_0.json
  ⟨cs! "011A", [cs! "0101:5606"], "Wenzhou MTLC Electric Appliances Co.,Ltd.", "ZWN-RSM2", "Smart Dual Relay Switch Module",
   [[0x2400, 0x2520, 0x2525, 0x2527, 0x3560, 0x2570, 0x2572, 0x3585, 0x3586, 0x358e], [0x1420, 0x2425], [0x1420, 0x2425]]⟩,
  -- enerwave_zwnsc7_0_0.json
  ⟨cs! "011A", [cs! "0801:0B03"], "Wenzhou MTLC Electric Appliances Co.,Ltd.", "ZWN-SC7", "Scene Controller",
   [[0x2400, 0x2420, 0x202b, 0x2472, 0x2485, 0x2486]]⟩,
  -- eurotronic_cometz_0_0.json
  ⟨cs! "0148", [cs! "0002:0001"], "Eurotronics", "CometZ", "Thermostatic Valve",
   [[0x2400, 0x2520, 0x4526, 0x5531, 0x2540, 0x2543, 0x2572, 0x2577, 0x2580, 0x3584, 0x2586]]⟩,
  -- eurotronic_stellaz_0_0.json
  ⟨cs! "0148", [cs! "0001:0001"], "Eurotronics", "StellaZ", "Thermostatic Valve",
   [[0x2400, 0x2420, 0x4426, 0x1430, 0x5431, 0x3440, 0x3443, 0x2472, 0x2480, 0x3484, 0x2486]]⟩,
  -- everspring135_st812_0_0.json
  ⟨cs! "0135", [cs! "000B:0001"], "Everspring (135)", "ST812", "Flood sensor",
   [[0x2400, 0x2520, 0x2570, 0x2572, 0x2580, 0x3584, 0x2585, 0x2586, 0x259c]]⟩,
  -- everspring_ad130_0_0.json
  ⟨cs! "0060", [cs! "0003:0001"], "Everspring", "AD130", "Dimmer Plugin",
   [[0x2400, 0x2420, 0x2526, 0x2527, 0x2572, 0x2573, 0x2575, 0x2586]]⟩,
  -- everspring_ad131_0_0.json
  ⟨cs! "0060", [cs! "0003:0001"], "Everspring", "AD131", "Dimmer Plugin",
   [[0x2400, 0x2420, 0x2526, 0x2527, 0x2572, 0x2573, 0x2575, 0x2586]]⟩,
  -- everspring_ad146_0_0.json
  ⟨cs! "0060", [cs! "0003:0002"], "Everspring", "AD146", "In-Wall Dimmer Module",
   [[0x2400, 0x2520, 0x2526, 0x2527, 0x2559, 0x255a, 0x255e, 0x2570, 0x4571, 0x2572, 0x2573, 0x257a, 0x2585, 0x3586]]⟩,
  -- everspring_ad147_0_0.json
  ⟨cs! "0060", [cs! "0003:0003"], "Everspring", "AD147", "Z-Wave Dimmer Plug",
   [[0x2400, 0x2420, 0x2426, 0x2427, 0x2470, 0x2471, 0x2472, 0x2485, 0x2486]]⟩,
  -- everspring_an157_0_0.json
  ⟨cs! "0060", [cs! "0004:0001", cs! "0104:0001"], "Everspring", "AN157", "Switch Plugin",
   [[0x2420, 0x2525, 0x2527, 0x2572, 0x2573, 0x2575, 0x2586]]⟩,
  -- everspring_an158_0_0.json
  ⟨cs! "0060", [cs! "0004:0002"], "Everspring", "AN158", "Switch Meter Plugin",
   [[0x2400, 0x2420, 0x2425, 0x2427, 0x3432, 0x2470, 0x2471, 0x2472, 0x2485, 0x2486]]⟩,
  -- everspring_an163_0_0.json
  ⟨cs! "0060", [cs! "0004:0005"], "Everspring", "AN163", "Metering Power Switch",
   [[0x2400, 0x2520, 0x2525, 0x2527, 0x3532, 0x2570, 0x2571, 0x2572, 0x3585, 0x2586]]⟩,
  -- everspring_an179_0_0.json
  ⟨cs! "0060", [cs! "0004:0008", cs! "0011:0002"], "Everspring", "AN179", "In-Wall Switch Module",
   [[0x2400, 0x2520, 0x2525, 0x2527, 0x2559, 0x255a, 0x255e, 0x2570, 0x4571, 0x2572, 0x2573, 0x257a, 0x2585, 0x3586]]⟩,
  -- everspring_an1802_0_0.json
  ⟨cs! "0060", [cs! "0004:0007"], "Everspring", " AN1802", "Switch without metering",
   [[0x2400, 0x2520, 0x2525, 0x2527, 0x2559, 0x255a, 0x255e, 0x2570, 0x5571, 0x2572, 0x2573, 0x257a, 0x3585, 0x3586]]⟩,
  -- everspring_an180_0_0.json
  ⟨cs! "0060", [cs! "0004:0007"], "Everspring", " AN180", "Switch without metering",
   [[0x2400, 0x2520, 0x2525, 0x2527, 0x2559, 0x255a, 0x255e, 0x2570, 0x5571, 0x2572, 0x2573, 0x257a, 0x3585, 0x3586]]⟩,
  -- everspring_an181_0_0.json
  ⟨cs! "0060", [cs! "0004:0006", cs! "0004:0007"], "Everspring", "AN181", "Mini Plug Switch with Metering (Gen5)",
   [[0x2400, 0x2520, 0x2522, 0x2525, 0x2527, 0x4532, 0x1559, 0x255a, 0x255e, 0x2570, 0x4571, 0x2572, 0x2573, 0x157a, 0x2585, 0x2586]]⟩,
  -- everspring_hac01_0_0.json
  ⟨cs! "0060", [cs! "0010:0001"], "Everspring", "HAC01", "In-Wall Remote Insert",
   [[0x2400, 0x2420, 0x1422, 0x2425, 0x2470, 0x2472, 0x2485, 0x2486]]⟩,
  -- everspring_hsm02_0_0.json
  ⟨cs! "0060", [cs! "0202:0001", cs! "0002:0002"], "Everspring", "HSM02", "Door/Window Contact",
   [[0x2400, 0x2420, 0x2430, 0x2470, 0x2471, 0x2472, 0x2480, 0x3484, 0x2485, 0x2486]]⟩]

/-- database/json, files 151-200 -/
def devFiles3 : List DevFile := [
  -- everspring_hsp02_0_0.json
  ⟨cs! "0060", [cs! "0001:0003"], "Everspring", "HSP02", "Motion Detector",
   [[0x2400, 0x2520, 0x2530, 0x2570, 0x2571, 0x2572, 0x2580, 0x3584, 0x3585, 0x2586]]⟩,
  -- everspring_se812_0_0.json
  ⟨cs! "0060", [cs! "000C:0001"], "Everspring", "SE812", "Siren",
   [[0x2400, 0x2420, 0x2525, 0x2471, 0x2572, 0x2580, 0x2585, 0x2586]]⟩,
  -- everspring_sf812_0_0.json
  ⟨cs! "0060", [cs! "000D:0001"], "Everspring", "SF812", "Smoke Sensor",
   [[0x2400, 0x2420, 0x2471, 0x2472, 0x2480, 0x2485, 0x2486, 0x249c]]⟩,
  -- everspring_sm103_0_0.json
  ⟨cs! "0060", [cs! "0002:0001"], "Everspring", "SM103", "Door/Window Contact",
   [[0x2400, 0x2520, 0x2530, 0x2570, 0x2571, 0x2572, 0x2580, 0x2584, 0x2585, 0x2586]]⟩,
  -- everspring_sp103_0_0.json
  ⟨cs! "0060", [cs! "0101:0001"], "Everspring", "SP103", "Motion Detector",
   [[0x2400, 0x2420, 0x2530, 0x2570, 0x2571, 0x2572, 0x2580, 0x2584, 0x2585, 0x2586]]⟩,
  -- everspring_sp814_0_0.json
  ⟨cs! "0060", [cs! "0001:0002"], "Everspring", "SP814", "Motion Detector",
   [[0x2400, 0x2520, 0x2530, 0x2570, 0x2572, 0x2580, 0x3584, 0x2585, 0x2586]]⟩,
  -- everspring_st812_0_0.json
  ⟨cs! "0060", [cs! "000B:0001"], "Everspring", "ST812", "Flood Sensor",
   [[0x2400, 0x2420, 0x2470, 0x2471, 0x2472, 0x2480, 0x3484, 0x2485, 0x2486, 0x249c]]⟩,
  -- everspring_st814_0_0.json
  ⟨cs! "0060", [cs! "0006:0001"], "Everspring", "ST814", "Temperature and Humidity Sensor",
   [[0x2400, 0x2420, 0x3431, 0x3460, 0x2470, 0x2471, 0x2472, 0x2480, 0x3484, 0x2485, 0x2486], [0x1420, 0x3431], [0x1420, 0x3431]]⟩,
  -- everspring_st815_0_0.json
  ⟨cs! "0060", [cs! "0007:0001"], "Everspring", "ST815", "Illumination Sensor",
   []⟩,
  -- evolve_ldm15w_0_0.json
  ⟨cs! "0113", [cs! "4450:3030"], "Evolve", "LDM-15W", "Lamp Module",
   [[0x2400, 0x2420, 0x2526, 0x2527, 0x252b, 0x252c, 0x2570, 0x2572, 0x2573, 0x2586]]⟩,
  -- evolve_lfm20_0_0.json
  ⟨cs! "0113", [cs! "5246:3133"], "Evolve", "LFM-20", "",
   [[0x2400, 0x2420, 0x2425, 0x2427, 0x242b, 0x2470, 0x2472, 0x2486]]⟩,
  -- evolve_lpm15_0_0.json
  ⟨cs! "0113", [cs! "5250:3030"], "Evolve", "LPM-15", "Appliance module",
   [[0x2400, 0x2420, 0x2525, 0x2527, 0x252b, 0x252c, 0x2570, 0x2572, 0x2573, 0x2575, 0x2586]]⟩,
  -- evolve_lrmas_0_0.json
  ⟨cs! "0113", [cs! "4457:3034"], "Evolve", "LRM-AS", "Wall Mounted Dimmer",
   [[0x2400, 0x2420, 0x1422, 0x1425, 0x2426, 0x2427, 0x242b, 0x1430, 0x1432, 0x2470, 0x1471, 0x2472, 0x1480, 0x2486]]⟩,
  -- evolve_lsm15_0_0.json
  ⟨cs! "0113", [cs! "5257:3533"], "Evolve", "LSM-15", "Wall Mounted Switch",
   [[0x2400, 0x2420, 0x2425, 0x1426, 0x2427, 0x242b, 0x1460, 0x2470, 0x2472, 0x2486]]⟩,
  -- evolve_t100_0_0.json
  ⟨cs! "0113", [cs! "4556:5434"], "Evolve", "T100", "Thermostat",
   [[0x2400, 0x2520, 0x252b, 0x252c, 0x2531, 0x2540, 0x2542, 0x2543, 0x2544, 0x2545, 0x2570, 0x2572, 0x2573, 0x2581, 0x2585, 0x2586]]⟩,
  -- fakro_arz_0_0.json
  ⟨cs! "0085", [cs! "0002:0002"], "Fakro", "ARZ", "Roller Shutter Module",
   [[0x2400, 0x2420, 0x2525, 0x4526, 0x2527, 0x2572, 0x2573, 0x2586]]⟩,
  -- fakro_zws12_0_0.json
  ⟨cs! "0085", [cs! "0002:0001", cs! "0003:0001"], "Fakro", "ZWS12", "Chain Actuator",
   [[0x2400, 0x2420, 0x2525, 0x4526, 0x2527, 0x2570, 0x2572, 0x2573, 0x2575, 0x2585, 0x2586]]⟩,
  -- fibaro_fgbs001_0_0.json
  ⟨cs! "010F", [cs! "0501:0102", cs! "0501:1002", cs! "0501:2002", cs! "0501:3002"], "Fibargroup", "FGBS001", "Universal Binary Sensor",
   [[0x2420, 0x142b, 0x2430, 0x3460, 0x2470, 0x2485, 0x2486], [0x1420, 0x2430, 0x109c], [0x1420, 0x2430, 0x149c], [0x1420, 0x1431], [0x2420, 0x1431], [0x1420, 0x1431], [0x1431]]⟩,
  -- fibaro_fgcc001_0_0.json
  ⟨cs! "010F", [cs! "0D01:1000", cs! "0D01:3000"], "Fibargroup", "FGGC001", "Fibaro Swipe Scene Controller",
   [[0x2400, 0x2420, 0x2556, 0x1559, 0x255a, 0x355b, 0x255e, 0x2570, 0x2572, 0x2573, 0x157a, 0x2580, 0x3584, 0x2585, 0x2586, 0x158e, 0x1598]]⟩,
  -- fibaro_fgd211_0_0.json
  ⟨cs! "010F", [cs! "0100:0104", cs! "0100:0106", cs! "0100:0107", cs! "0100:0109", cs! "0100:100A", cs! "0100:300A"], "Fibargroup", "FGD211", "Universal Dimmer 500W",
   [[0x2400, 0x2420, 0x2526, 0x1527, 0x2570, 0x2572, 0x1573, 0x2585, 0x2586, 0x158e]]⟩,
  -- fibaro_fgd211_1_9.json
  ⟨cs! "010F", [cs! "0100:0104", cs! "0100:0106", cs! "0100:0107", cs! "0100:0109", cs! "0100:100A", cs! "0100:300A"], "Fibargroup", "FGD211", "Universal Dimmer 500W",
   [[0x2400, 0x2420, 0x2526, 0x2527, 0x2570, 0x2572, 0x2573, 0x2585, 0x2586, 0x158e]]⟩,
  -- fibaro_fgd211_2_1.json
  ⟨cs! "010F", [cs! "0100:0104", cs! "0100:0106", cs! "0100:0107", cs! "0100:0109", cs! "0100:100A", cs! "0100:300A"], "Fibargroup", "FGD211", "Universal Dimmer 500W",
   [[0x2400, 0x2420, 0x2526, 0x2527, 0x202b, 0x2570, 0x2572, 0x2573, 0x157a, 0x2585, 0x2586, 0x158e]]⟩,
  -- fibaro_fgd212_0_0.json
  ⟨cs! "010F", [cs! "0102:1000", cs! "0102:2000", cs! "0102:3000", cs! "0102:4000"], "Fibargroup", "FGD212", "Dimmer 2",
   [[0x2400, 0x2420, 0x2422, 0x4426, 0x2427, 0x142b, 0x5431, 0x4432, 0x2456, 0x1159, 0x3460, 0x2470, 0x2471, 0x2472, 0x2485, 0x2486], [0x1420, 0x4426, 0x5431, 0x4432, 0x1059, 0x2471, 0x2485, 0x2486], [0x1420, 0x4426, 0x1059, 0x2485, 0x2486]]⟩,
  -- fibaro_fgfs101_0_0.json
  ⟨cs! "010F", [cs! "0B00:1001", cs! "0B00:2001", cs! "0B00:3001"], "Fibargroup", "FGFS101", "Flood Sensor",
   [[0x2400, 0x2420, 0x2430, 0x3460, 0x2470, 0x2472, 0x2480, 0x2485, 0x2486, 0x249c], [0x1420, 0x2430], [0x1420, 0x1431]]⟩,
  -- fibaro_fgfs101_23_23.json
  ⟨cs! "010F", [cs! "0B00:1001", cs! "0B00:2001"], "Fibargroup", "FGFS101", "Flood Sensor",
   [[0x2400, 0x2420, 0x2530, 0x3560, 0x2570, 0x2572, 0x2580, 0x2584, 0x2585, 0x2586, 0x258e, 0x259c], [0x1420, 0x2430], [0x1420, 0x1431]]⟩,
  -- fibaro_fgfs101_25_25.json
  ⟨cs! "010F", [cs! "0B00:1001", cs! "0B00:2001"], "Fibargroup", "FGFS101", "Flood Sensor",
   [[0x2400, 0x2420, 0x2530, 0x3560, 0x2570, 0x2572, 0x2580, 0x2584, 0x2585, 0x2586, 0x258e, 0x259c], [0x1420, 0x2430], [0x1420, 0x1431]]⟩,
  -- fibaro_fgfs101_3_2.json
  ⟨cs! "010F", [cs! "0B00:1001", cs! "0B01:1002", cs! "0B01:2002"], "Fibargroup", "FGFS101", "Flood Sensor",
   [[0x2400, 0x2520, 0x2522, 0x1430, 0x6531, 0x2556, 0x2559, 0x255a, 0x255e, 0x2570, 0x4571, 0x2572, 0x2573, 0x257a, 0x2580, 0x3584, 0x2585, 0x2586, 0x158e, 0x2598, 0x259c]]⟩,
  -- fibaro_fgk101_0_0.json
  ⟨cs! "010F", [cs! "0700:1000", cs! "0700:2000", cs! "0700:3000"], "Fibargroup", "FGK101", "Door Opening Sensor",
   [[0x2400, 0x2420, 0x2430, 0x2470, 0x2472, 0x2480, 0x2484, 0x2485, 0x2486, 0x249c], [0x1420, 0x2430], [0x1420, 0x3231]]⟩,
  -- fibaro_fgk101_3_2.json
  ⟨cs! "010F", [cs! "0701:1001", cs! "0701:3001"], "Fibargroup", "FGK101", "Door Opening Sensor",
   [[0x2400, 0x2420, 0x2422, 0x242b, 0x2430, 0x6131, 0x2456, 0x2470, 0x2471, 0x2472, 0x2480, 0x3484, 0x2485, 0x2486, 0x249c]]⟩,
  -- fibaro_fgkf601_0_0.json
  ⟨cs! "010F", [cs! "1001:1000"], "Fibargroup", "FGKF601", "Keyfob",
   [[0x2400, 0x2420, 0x2422, 0x2456, 0x2459, 0x245a, 0x445b, 0x245e, 0x2470, 0x2472, 0x2473, 0x3475, 0x247a, 0x2480, 0x3484, 0x3485, 0x3486, 0x448e]]⟩,
  -- fibaro_fgms001_0_0.json
  ⟨cs! "010F", [cs! "0800:1001", cs! "0800:2001", cs! "0800:3001", cs! "0801:1001", cs! "0801:2001"], "Fibargroup", "FGMS001", "Motion Sensor",
   [[0x2400, 0x2420, 0x2530, 0x6531, 0x2556, 0x2570, 0x2572, 0x2580, 0x2584, 0x2585, 0x2586, 0x158e, 0x258f, 0x259c]]⟩,
  -- fibaro_fgms001_3_2.json
  ⟨cs! "010F", [cs! "0801:1001", cs! "0801:2001", cs! "0801:3001", cs! "8800:3001"], "Fibargroup", "FGMS001", "Motion Sensor",
   [[0x2400, 0x2520, 0x2522, 0x2530, 0x8531, 0x2556, 0x2559, 0x255a, 0x255e, 0x2570, 0x4571, 0x2572, 0x2573, 0x257a, 0x2580, 0x3584, 0x2585, 0x2586, 0x158e, 0x1598, 0x259c]]⟩,
  -- fibaro_fgpb101_0_0.json
  ⟨cs! "010F", [cs! "0F01:1000", cs! "0F01:2000", cs! "0F01:3000", cs! "FB10:1014"], "Fibargroup", "FGPB101", "A real push button (switch) available in several colors.",
   [[0x2400, 0x2420, 0x2456, 0x245b, 0x2470, 0x2471, 0x2472, 0x2480, 0x3484, 0x2485, 0x2486]]⟩,
  -- fibaro_fgr221_0_0.json
  ⟨cs! "010F", [cs! "0300:0104", cs! "0300:0106", cs! "0300:0107", cs! "0300:100A", cs! "0300:0109"], "Fibargroup", "FGR221", "Roller Shutter Controller",
   [[0x2400, 0x2420, 0x2525, 0x4526, 0x2527, 0x2550, 0x2570, 0x2572, 0x2573, 0x2585, 0x2586, 0x158e]]⟩,
  -- fibaro_fgrgbw_0_0.json
  ⟨cs! "010F", [cs! "0900:1000", cs! "0900:2000", cs! "0900:3000", cs! "0900:4000"], "Fibargroup", "FGRGBW", "RGBW Controller",
   [[0x2400, 0x2420, 0x2426, 0x2427, 0x3431, 0x3432, 0x2533, 0x3460, 0x2470, 0x2472, 0x2485, 0x2486], [0x1420, 0x2426], [0x1420, 0x2426], [0x1420, 0x2426], [0x1420, 0x2426], [0x1420, 0x2426]]⟩,
  -- fibaro_fgrm222_0_0.json
  ⟨cs! "010F", [cs! "0301:1001", cs! "0301:3001", cs! "0302:1000"], "Fibargroup", "FGRM222", "Roller Shutter",
   [[0x2400, 0x2420, 0x2425, 0x4526, 0x142b, 0x3431, 0x3532, 0x2470, 0x2472, 0x2573, 0x3575, 0x2485, 0x2486, 0x258e, 0x1491]]⟩,
  -- fibaro_fgrm222_24_24.json
  ⟨cs! "010F", [cs! "0301:1001", cs! "0302:1000", cs! "0302:3000"], "Fibargroup", "FGRM222", "Roller Shutter",
   [[0x2400, 0x2420, 0x2525, 0x4526, 0x142b, 0x3531, 0x3532, 0x2570, 0x2572, 0x2573, 0x3575, 0x2585, 0x2586, 0x258e, 0x1591]]⟩,
  -- fibaro_fgrm222_25_25.json
  ⟨cs! "010F", [cs! "0302:1000", cs! "0302:3000"], "Fibaro System", "FGRM222", "Roller Shutter",
   [[0x2400, 0x2420, 0x2525, 0x4526, 0x3531, 0x3532, 0x2570, 0x2572, 0x2573, 0x3575, 0x2585, 0x2586, 0x258e, 0x1591]]⟩,
  -- fibaro_fgs211_0_0.json
  ⟨cs! "010F", [cs! "0400:0102", cs! "0400:0104", cs! "0400:0105", cs! "0400:0106", cs! "0400:0107", cs! "0400:0108", cs! "0400:0109", cs! "0400:100A", cs! "0400:300A", cs! "0402:3002"], "Fibargroup", "FGS211", "Relay Switch 1x3kW",
   [[0x2400, 0x2420, 0x2425, 0x3460, 0x2470, 0x2472, 0x2485, 0x2486], [0x1420, 0x2425], [0x1420, 0x2425]]⟩,
  -- fibaro_fgs212_0_0.json
  ⟨cs! "010F", [cs! "0401:100A", cs! "0402:1002"], "Fibargroup", "FGS212", "Relay Switch 1x2.5kW",
   [[0x2400, 0x2420, 0x2425, 0x2427, 0x3460, 0x2470, 0x2472, 0x1484, 0x2485, 0x2486, 0x1487], [0x1420, 0x2425], [0x1420, 0x2425]]⟩,
  -- fibaro_fgs213_0_0.json
  ⟨cs! "010F", [cs! "0403:1000", cs! "0403:3000"], "Fibargroup", "FGS213", "Single Switch 2",
   [[0x2400, 0x2420, 0x2422, 0x2425, 0x5431, 0x4432, 0x2456, 0x2459, 0x245a, 0x245b, 0x245e, 0x3460, 0x2470, 0x6471, 0x2472, 0x2473, 0x3475, 0x247a, 0x3485, 0x3486, 0x448e], [0x1420, 0x2425, 0x4432, 0x2459, 0x245e, 0x3485, 0x3486, 0x448e], [0x1420, 0x2425, 0x2459, 0x245e, 0x3485, 0x3486, 0x448e]]⟩,
  -- fibaro_fgs221_1_4.json
  ⟨cs! "010F", [cs! "0200:0102", cs! "0200:0103", cs! "0200:0104", cs! "0200:0105", cs! "0200:0106", cs! "0200:0107", cs! "0200:0109", cs! "0200:100A", cs! "0200:300A", cs! "0202:3002"], "Fibargroup", "FGS221", "Double Relay Switch 2x1.5kW",
   [[0x2400, 0x2420, 0x2525, 0x1527, 0x3560, 0x2570, 0x2572, 0x1573, 0x2585, 0x2586, 0x158e], [0x1420, 0x2425], [0x1420, 0x2425]]⟩,
  -- fibaro_fgs221_1_9.json
  ⟨cs! "010F", [cs! "0200:0102", cs! "0200:0103", cs! "0200:0104", cs! "0200:0105", cs! "0200:0106", cs! "0200:0107", cs! "0200:0109", cs! "0200:100A", cs! "0200:300A", cs! "0202:3002"], "Fibargroup", "FGS221", "Double Relay Switch 2x1.5kW",
   [[0x2400, 0x2420, 0x2525, 0x2527, 0x3560, 0x2570, 0x2572, 0x2573, 0x2585, 0x2586, 0x158e], [0x1420, 0x2425], [0x1420, 0x2425]]⟩,
  -- fibaro_fgs221_2_1.json
  ⟨cs! "010F", [cs! "0200:0102", cs! "0200:0103", cs! "0200:0104", cs! "0200:0105", cs! "0200:0106", cs! "0200:0107", cs! "0200:0109", cs! "0200:100A", cs! "0200:300A", cs! "0202:3002"], "Fibargroup", "FGS221", "Double Relay Switch 2x1.5kW",
   [[0x2400, 0x2420, 0x2425, 0x3460, 0x2470, 0x2472, 0x1484, 0x2485, 0x2486], [0x1420, 0x2425], [0x1420, 0x2425]]⟩,
  -- fibaro_fgs222_0_0.json
  ⟨cs! "010F", [cs! "0202:1002", cs! "0202:4002"], "Fibargroup", "FGS222", "Double Relay Switch 2x1.5kW",
   [[0x2400, 0x2420, 0x2425, 0x2427, 0x3460, 0x2470, 0x2472, 0x2485, 0x2486], [0x1420, 0x2425], [0x1420, 0x2425]]⟩,
  -- fibaro_fgs223_0_0.json
  ⟨cs! "010F", [cs! "0203:1000", cs! "0203:2000", cs! "0203:3000"], "Fibargroup", "FGS223", "Double Switch 2 ",
   [[0x2400, 0x2620, 0x2422, 0x2425, 0x4432, 0x2456, 0x245b, 0x3460, 0x2470, 0x2471, 0x2472, 0x2485, 0x2486], [0x1620, 0x2425, 0x4432, 0x2485, 0x2486], [0x1620, 0x2425, 0x4432, 0x2485, 0x2486]]⟩,
  -- fibaro_fgsd002_0_0.json
  ⟨cs! "010F", [cs! "0C02:1002"], "Fibargroup", "FGSD002", "Smoke Detector",
   [[0x2400, 0x2420, 0x2522, 0x6531, 0x2556, 0x1559, 0x255a, 0x255e, 0x2570, 0x4571, 0x2572, 0x2573, 0x157a, 0x2580, 0x3584, 0x2585, 0x2586, 0x158b, 0x158e, 0x259c]]⟩,
  -- fibaro_fgss001_0_0.json
  ⟨cs! "010F", [cs! "0C00:1000", cs! "0C00:3000"], "Fibargroup", "FGSS001", "Smoke Sensor",
   [[0x2400, 0x2420, 0x2431, 0x2456, 0x2470, 0x2472, 0x2480, 0x2484, 0x2485, 0x2486, 0x248b, 0x249c]]⟩,
  -- fibaro_fgss101_0_0.json
  ⟨cs! "010F", [cs! "0C00:1000"], "Fibargroup", "FGSS101", "Smoke Sensor",
   []⟩,
  -- fibaro_fgwp101_0_0.json
  ⟨cs! "010F", [cs! "0600:1000"], "Fibargroup", "FGWP101", "Metered Wall Plug Switch",
   [[0x2400, 0x2420, 0x2425, 0x3431, 0x3432, 0x2470, 0x6571, 0x2472, 0x2485, 0x2486]]⟩]

end Verif.Model.Tables
