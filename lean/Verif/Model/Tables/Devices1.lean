import Verif.Model.Tables.Row

/-
Generated by tools/gen_tables.py from /repo/database/devices.go: the cases of the switch in `New`
(lines 33-1446) with the device the called constructor returns.  Before each row: line of the case,
lines of the constructor.  `Parameters` is left out (nothing reads it).
-/

namespace Verif.Model.Tables

/-- database/devices.go 34-153 -/
def devRows0 : List DevRow := [
  -- 34; 1450-1527
  ⟨cs! "0081_00a0_0001", "SIEGENIA-AUBI KG", "Sensoair", "Air quality sensor for indoor use", cs! "0081", cs! "00A0", cs! "0001",
   [0x2400, 0x2420, 0x4531, 0x2570, 0x2572, 0x1573, 0x2585, 0x2586, 0x259e]⟩,
  -- 36; 1528-1587
  ⟨cs! "0068_0000_0010", "Good Way Technology Co., Ltd", "TD1311", "In wall Power Monitor Switch", cs! "0068", cs! "0000", cs! "0010",
   [0x2400, 0x2420, 0x1425, 0x2427, 0x3460, 0x2470, 0x2472, 0x247a, 0x2486]⟩,
  -- 38; 1588-1672
  ⟨cs! "010a_1100_4b00", "VDA", "Vitrum III EU Dimmer", "", cs! "010A", cs! "1100", cs! "4B00",
   [0x2400, 0x2420, 0x2526, 0x2527, 0x3560, 0x2572, 0x2577, 0x2585, 0x2586, 0x2587, 0x258e, 0x1591]⟩,
  -- 40; 1673-1839
  ⟨cs! "0001_4450_3030", "ACT - Advanced Control Technologies", "45602", "Lamp Module with Dimmer Control", cs! "0001", cs! "4450", cs! "3030",
   [0x2400, 0x2420, 0x2526, 0x2527, 0x2570, 0x2572, 0x2573, 0x2575, 0x2586]⟩,
  -- 42; 1840-1953
  ⟨cs! "0001_444d_3330", "ACT - Advanced Control Technologies", "ZDM230", "HomePro Wall Dimmer ZDM230", cs! "0001", cs! "444D", cs! "3330",
   [0x2520, 0x2526, 0x2527, 0x2570, 0x2572, 0x2573, 0x2585, 0x2586]⟩,
  -- 44; 1954-2261
  ⟨cs! "0001_4457_3033", "ACT - Advanced Control Technologies", "ZDW103", "Wall Mounted 3-Way Dimmer Receiver", cs! "0001", cs! "4457", cs! "3033",
   [0x2400, 0x2420, 0x2526, 0x2527, 0x2570, 0x2572, 0x2573, 0x2585, 0x2586]⟩,
  -- 46; 2262-2535
  ⟨cs! "0001_4457_3230", "ACT - Advanced Control Technologies", "ZDW120", "Two Wire Wall Dimer", cs! "0001", cs! "4457", cs! "3230",
   [0x2400, 0x2420, 0x2526, 0x2527, 0x2570, 0x2572, 0x2573, 0x2585, 0x2586]⟩,
  -- 48; 2536-2669
  ⟨cs! "0001_4952_3130", "ACT - Advanced Control Technologies", "ZIR010", "PIR Motion Sensor", cs! "0001", cs! "4952", cs! "3130",
   [0x2400, 0x2420, 0x2530, 0x2570, 0x2571, 0x2572, 0x2580, 0x2584, 0x2585, 0x2586]⟩,
  -- 50; 2670-2858
  ⟨cs! "0001_524d_3330", "ACT - Advanced Control Technologies", "ZRM230", "Wall Switch/Transmitter (2-gang)", cs! "0001", cs! "524D", cs! "3330",
   [0x2400, 0x2420, 0x2425, 0x1426, 0x2470, 0x2472, 0x2485, 0x2486]⟩,
  -- 52; 2859-2901
  ⟨cs! "0001_7fff_7fff", "ACT - Advanced Control Technologies", "ZRP200", "HomePro Applicance Module ZRP200", cs! "0001", cs! "7FFF", cs! "7FFF",
   [0x2400, 0x2420, 0x2525, 0x2527, 0x2575]⟩,
  -- 54; 2902-3092
  ⟨cs! "0001_5257_3330", "ACT - Advanced Control Technologies", "ZRW230", "Wall Mounted 3-Way Switch", cs! "0001", cs! "5257", cs! "3330",
   [0x2400, 0x2420, 0x2525, 0x2527, 0x2570, 0x2572, 0x2573, 0x2585, 0x2586]⟩,
  -- 56; 3093-3372
  ⟨cs! "0001_544d_3330", "ACT - Advanced Control Technologies", "ZTM230", "Dual paddle wall mounted transmitter", cs! "0001", cs! "544D", cs! "3330",
   [0x2400, 0x2420, 0x2425, 0x2426, 0x2427, 0x2470, 0x2472, 0x2485, 0x2486, 0x2487]⟩,
  -- 58; 3373-3543
  ⟨cs! "0086_0002_0078", "AEON Labs", "ZW120", "Door/Window sensor Gen5", cs! "0086", cs! "0002", cs! "0078",
   [0x2400, 0x2420, 0x2430, 0x2470, 0x2471, 0x2472, 0x2480, 0x3484, 0x2485, 0x2486]⟩,
  -- 60; 3544-3714
  ⟨cs! "0086_0102_0078", "AEON Labs", "ZW120", "Door/Window sensor Gen5", cs! "0086", cs! "0102", cs! "0078",
   [0x2400, 0x2420, 0x2430, 0x2470, 0x2471, 0x2472, 0x2480, 0x3484, 0x2485, 0x2486]⟩,
  -- 62; 3715-4077
  ⟨cs! "0086_0001_0003", "AEON Labs", "DSA03202", "Minimote 4 button remote control", cs! "0086", cs! "0001", cs! "0003",
   [0x2400, 0x2420, 0x242b, 0x2470, 0x2472, 0x2484, 0x2486]⟩,
  -- 64; 4078-4440
  ⟨cs! "0086_0006_0002", "AEON Labs", "DSA03202", "Minimote 4 button remote control", cs! "0086", cs! "0006", cs! "0002",
   [0x2400, 0x2420, 0x242b, 0x2470, 0x2472, 0x2484, 0x2486]⟩,
  -- 66; 4441-4523
  ⟨cs! "0086_0001_0026", "AEON Labs", "DSA38", "Panic Button Key Fob", cs! "0086", cs! "0001", cs! "0026",
   [0x2400, 0x2420, 0x242b, 0x2570, 0x2572, 0x2580, 0x3584, 0x2585, 0x2586]⟩,
  -- 68; 4524-4727
  ⟨cs! "0086_0002_0005", "AEON Labs", "DSB05", "4 in One MultiSensor", cs! "0086", cs! "0002", cs! "0005",
   [0x2400, 0x2420, 0x2430, 0x6431, 0x2470, 0x2472, 0x2480, 0x3484, 0x2485, 0x2486]⟩,
  -- 70; 4728-4976
  ⟨cs! "0086_0002_0009", "AEON Labs", "DSB09", "Home Energy Meter", cs! "0086", cs! "0002", cs! "0009",
   [0x2400, 0x2420, 0x3531, 0x3532, 0x3560, 0x2570, 0x2572, 0x2580, 0x2585, 0x2586]⟩,
  -- 72; 4977-5218
  ⟨cs! "0086_0002_001c", "AEON Labs", "DSB28", "Home Energy Meter G2", cs! "0086", cs! "0002", cs! "001C",
   [0x2400, 0x2420, 0x4432, 0x2456, 0x3460, 0x2470, 0x2472, 0x2485, 0x2486]⟩,
  -- 74; 5219-5378
  ⟨cs! "0086_0002_0004", "AEON Labs", "DSB29", "Door/Window sensor Gen2", cs! "0086", cs! "0002", cs! "0004",
   [0x2400, 0x2420, 0x2430, 0x2470, 0x2471, 0x2472, 0x2480, 0x3484, 0x2485, 0x2486]⟩,
  -- 76; 5379-5538
  ⟨cs! "0086_0002_001d", "AEON Labs", "DSB29", "Door/Window sensor Gen2", cs! "0086", cs! "0002", cs! "001D",
   [0x2400, 0x2420, 0x2430, 0x2470, 0x2471, 0x2472, 0x2480, 0x3484, 0x2485, 0x2486]⟩,
  -- 78; 5539-5708
  ⟨cs! "0086_0002_002d", "AEON Labs", "DSB45", "Water Sensor", cs! "0086", cs! "0002", cs! "002D",
   [0x2400, 0x2420, 0x2430, 0x2470, 0x2471, 0x2472, 0x2480, 0x3484, 0x2485, 0x2486]⟩,
  -- 80; 5709-5877
  ⟨cs! "0086_0002_0036", "AEON Labs", "DSB54", "Recessed Door/Window Sensor", cs! "0086", cs! "0002", cs! "0036",
   [0x2400, 0x2420, 0x2530, 0x2570, 0x2572, 0x2580, 0x3584, 0x2585, 0x2586]⟩,
  -- 82; 5878-6196
  ⟨cs! "0086_0003_0006", "AEON Labs", "DSC06", "Smart Energy Switch", cs! "0086", cs! "0003", cs! "0006",
   [0x2400, 0x2420, 0x2425, 0x2427, 0x4431, 0x3432, 0x2470, 0x2472, 0x2485, 0x2486]⟩,
  -- 84; 6197-6496
  ⟨cs! "0086_0003_0008", "AEON Labs", "DSC08", "Smart Energy Illuminator", cs! "0086", cs! "0003", cs! "0008",
   [0x2400, 0x2420, 0x2426, 0x1427, 0x4431, 0x3432, 0x2470, 0x2472, 0x2485, 0x2486]⟩,
  -- 86; 6497-6715
  ⟨cs! "0086_0003_000a", "AEON Labs", "DSC10", "Heavy Duty Smart Switch", cs! "0086", cs! "0003", cs! "000A",
   [0x2020, 0x2525, 0x2527, 0x252b, 0x252c, 0x6531, 0x4532, 0x2570, 0x3572, 0x2582, 0x2585, 0x2586]⟩,
  -- 88; 6716-7078
  ⟨cs! "0086_0003_000b", "AEON Labs", "DSC11", "Smart Strip", cs! "0086", cs! "0003", cs! "000B",
   [0x2400, 0x2420, 0x2425, 0x2427, 0x3432, 0x3460, 0x2470, 0x2472, 0x2485, 0x2486]⟩,
  -- 90; 7079-7328
  ⟨cs! "0086_0003_000c", "AEON Labs", "DSC12", "Micro Smart Energy Switch", cs! "0086", cs! "0003", cs! "000C",
   [0x2400, 0x2420, 0x2525, 0x2527, 0x4531, 0x3532, 0x2570, 0x2572, 0x2585, 0x2586]⟩,
  -- 92; 7329-7548
  ⟨cs! "0086_0003_000d", "AEON Labs", "DSC13", "Micro Smart Energy Illuminator", cs! "0086", cs! "0003", cs! "000D",
   [0x2400, 0x1420, 0x2426, 0x2427, 0x4431, 0x3432, 0x2470, 0x2472, 0x2485, 0x2486]⟩,
  -- 94; 7549-7764
  ⟨cs! "0086_0003_000e", "AEON Labs", "DSC14", "Micro Motor Controller", cs! "0086", cs! "0003", cs! "000E",
   [0x2400, 0x2420, 0x2525, 0x4526, 0x2570, 0x2572, 0x2585, 0x2586]⟩,
  -- 96; 7765-8149
  ⟨cs! "0086_0003_0011", "AEON Labs", "DSC17", "Micro Double Smart Switch", cs! "0086", cs! "0003", cs! "0011",
   [0x2400, 0x2420, 0x2525, 0x2527, 0x4531, 0x3532, 0x3560, 0x2570, 0x2572, 0x2585, 0x2586]⟩,
  -- 98; 8150-8411
  ⟨cs! "0086_0003_0012", "AEON Labs", "DSC18", "Micro Smart Energy Switch G2", cs! "0086", cs! "0003", cs! "0012",
   [0x2400, 0x2420, 0x2525, 0x2527, 0x252b, 0x152c, 0x4532, 0x2556, 0x2570, 0x2572, 0x2585, 0x2586]⟩,
  -- 100; 8412-8678
  ⟨cs! "0086_0003_0013", "AEON Labs", "DSC19", "Micro Smart Energy Illuminator G2", cs! "0086", cs! "0003", cs! "0013",
   [0x2400, 0x2420, 0x3526, 0x2527, 0x252b, 0x152c, 0x4532, 0x2570, 0x2572, 0x2585, 0x2586]⟩,
  -- 102; 8679-8992
  ⟨cs! "0086_0003_0018", "AEON Labs", "DSC24", "Smart Energy Switch G2", cs! "0086", cs! "0003", cs! "0018",
   [0x2400, 0x2420, 0x2525, 0x2527, 0x252b, 0x152c, 0x4532, 0x2556, 0x2570, 0x2572, 0x2585, 0x2586]⟩,
  -- 104; 8993-9306
  ⟨cs! "0086_0103_004b", "AEON Labs", "DSC24", "Smart Energy Switch G2", cs! "0086", cs! "0103", cs! "004B",
   [0x2400, 0x2420, 0x2525, 0x2527, 0x252b, 0x152c, 0x4532, 0x2556, 0x2570, 0x2572, 0x2585, 0x2586]⟩,
  -- 106; 9307-9387
  ⟨cs! "0086_0003_0019", "AEON Labs", "DSC25", "Smart Energy Illuminator G2", cs! "0086", cs! "0003", cs! "0019",
   [0x1520, 0x1526, 0x1527, 0x152b, 0x152c, 0x1532, 0x1570, 0x1572, 0x1582, 0x1585, 0x1586]⟩,
  -- 108; 9388-9643
  ⟨cs! "0086_0003_001a", "AEON Labs", "DSC26", "Micro Switch G2", cs! "0086", cs! "0003", cs! "001A",
   [0x2400, 0x2420, 0x2525, 0x2527, 0x252b, 0x152c, 0x2556, 0x2570, 0x2572, 0x2585, 0x2586]⟩,
  -- 110; 9644-9760
  ⟨cs! "0086_0003_001b", "AEON Labs", "DSC27", "Micro Illuminator G2", cs! "0086", cs! "0003", cs! "001B",
   [0x2400, 0x2420, 0x3526, 0x2527, 0x252b, 0x152c, 0x2570, 0x2572, 0x2585, 0x2586]⟩,
  -- 112; 9761-9827
  ⟨cs! "0086_0003_0023", "AEON Labs", "DSC35", "AEON Labs Micro Double Switch", cs! "0086", cs! "0003", cs! "0023",
   [0x2400, 0x2420, 0x2525, 0x2527, 0x3560, 0x2570, 0x2572, 0x2585, 0x2586]⟩,
  -- 114; 9828-10028
  ⟨cs! "0086_0004_0050", "AEON Labs", "DSD31", "Outlet Plugable Siren", cs! "0086", cs! "0004", cs! "0050",
   [0x2400, 0x2420, 0x2525, 0x252b, 0x152c, 0x1559, 0x255e, 0x2570, 0x2572, 0x2573, 0x157a, 0x2585, 0x2586, 0x1598]⟩,
  -- 116; 10029-10084
  ⟨cs! "0086_0004_0025", "AEON Labs", "DSD37", "Range Extender", cs! "0086", cs! "0004", cs! "0025",
   [0x2400, 0x2520, 0x2570, 0x2572, 0x2573, 0x2585, 0x2586]⟩,
  -- 118; 10085-10140
  ⟨cs! "0086_0019_0004", "AEON Labs", "DSD37", "Range Extender", cs! "0086", cs! "0019", cs! "0004",
   [0x2400, 0x2520, 0x2570, 0x2572, 0x2573, 0x2585, 0x2586]⟩,
  -- 120; 10141-10441
  ⟨cs! "0086_0004_0038", "AEON Labs", "ZW056", "Doorbell", cs! "0086", cs! "0004", cs! "0038",
   [0x2400, 0x2420, 0x2525, 0x1559, 0x255a, 0x255e, 0x2570, 0x2572, 0x2573, 0x157a, 0x2585, 0x2586, 0x1598]⟩,
  -- 122; 10442-10742
  ⟨cs! "0086_0104_0038", "AEON Labs", "ZW056", "Doorbell", cs! "0086", cs! "0104", cs! "0038",
   [0x2400, 0x2420, 0x2525, 0x1559, 0x255a, 0x255e, 0x2570, 0x2572, 0x2573, 0x157a, 0x2585, 0x2586, 0x1598]⟩,
  -- 124; 10743-11043
  ⟨cs! "0086_0204_0038", "AEON Labs", "ZW056", "Doorbell", cs! "0086", cs! "0204", cs! "0038",
   [0x2400, 0x2420, 0x2525, 0x1559, 0x255a, 0x255e, 0x2570, 0x2572, 0x2573, 0x157a, 0x2585, 0x2586, 0x1598]⟩,
  -- 126; 11044-11344
  ⟨cs! "0086_0304_0038", "AEON Labs", "ZW056", "Doorbell", cs! "0086", cs! "0304", cs! "0038",
   [0x2400, 0x2420, 0x2525, 0x1559, 0x255a, 0x255e, 0x2570, 0x2572, 0x2573, 0x157a, 0x2585, 0x2586, 0x1598]⟩,
  -- 128; 11345-11645
  ⟨cs! "0086_0904_0038", "AEON Labs", "ZW056", "Doorbell", cs! "0086", cs! "0904", cs! "0038",
   [0x2400, 0x2420, 0x2525, 0x1559, 0x255a, 0x255e, 0x2570, 0x2572, 0x2573, 0x157a, 0x2585, 0x2586, 0x1598]⟩,
  -- 130; 11646-11946
  ⟨cs! "0086_0a04_0038", "AEON Labs", "ZW056", "Doorbell", cs! "0086", cs! "0A04", cs! "0038",
   [0x2400, 0x2420, 0x2525, 0x1559, 0x255a, 0x255e, 0x2570, 0x2572, 0x2573, 0x157a, 0x2585, 0x2586, 0x1598]⟩,
  -- 132; 11947-12247
  ⟨cs! "0086_1a04_0038", "AEON Labs", "ZW056", "Doorbell", cs! "0086", cs! "1A04", cs! "0038",
   [0x2400, 0x2420, 0x2525, 0x1559, 0x255a, 0x255e, 0x2570, 0x2572, 0x2573, 0x157a, 0x2585, 0x2586, 0x1598]⟩,
  -- 134; 12248-12548
  ⟨cs! "0086_1d04_0038", "AEON Labs", "ZW056", "Doorbell", cs! "0086", cs! "1D04", cs! "0038",
   [0x2400, 0x2420, 0x2525, 0x1559, 0x255a, 0x255e, 0x2570, 0x2572, 0x2573, 0x157a, 0x2585, 0x2586, 0x1598]⟩,
  -- 136; 12549-12897
  ⟨cs! "0086_0003_003e", "AEON Labs", "ZW062", "Aeon Labs Garage Door Controller  Gen5 ", cs! "0086", cs! "0003", cs! "003E",
   [0x2400, 0x2420, 0x2425, 0x2066, 0x2470, 0x2472, 0x2485, 0x2486]⟩,
  -- 138; 12898-13246
  ⟨cs! "0086_0103_003e", "AEON Labs", "ZW062", "Aeon Labs Garage Door Controller  Gen5 ", cs! "0086", cs! "0103", cs! "003E",
   [0x2400, 0x2420, 0x2425, 0x2066, 0x2470, 0x2472, 0x2485, 0x2486]⟩,
  -- 140; 13247-13595
  ⟨cs! "0086_0203_003e", "AEON Labs", "ZW062", "Aeon Labs Garage Door Controller  Gen5 ", cs! "0086", cs! "0203", cs! "003E",
   [0x2400, 0x2420, 0x2425, 0x2066, 0x2470, 0x2472, 0x2485, 0x2486]⟩,
  -- 142; 13596-13882
  ⟨cs! "0086_0002_004a", "AEON Labs", "ZW074", "4 in One MultiSensor (G5)", cs! "0086", cs! "0002", cs! "004A",
   [0x2400, 0x2420, 0x2430, 0x6431, 0x2470, 0x2471, 0x2472, 0x2480, 0x3484, 0x2485, 0x2486]⟩,
  -- 144; 13883-14169
  ⟨cs! "0086_0102_004a", "AEON Labs", "ZW074", "4 in One MultiSensor (G5)", cs! "0086", cs! "0102", cs! "004A",
   [0x2400, 0x2420, 0x2430, 0x6431, 0x2470, 0x2471, 0x2472, 0x2480, 0x3484, 0x2485, 0x2486]⟩,
  -- 146; 14170-14456
  ⟨cs! "0086_0202_004a", "AEON Labs", "ZW074", "4 in One MultiSensor (G5)", cs! "0086", cs! "0202", cs! "004A",
   [0x2400, 0x2420, 0x2430, 0x6431, 0x2470, 0x2471, 0x2472, 0x2480, 0x3484, 0x2485, 0x2486]⟩,
  -- 148; 14457-14773
  ⟨cs! "0086_0003_004b", "AEON Labs", "ZW075", "Smart Energy Switch 3rd Edition", cs! "0086", cs! "0003", cs! "004B",
   [0x2400, 0x2420, 0x1422, 0x2425, 0x1427, 0x242b, 0x1430, 0x4432, 0x2456, 0x1059, 0x2470, 0x2472, 0x1484, 0x2485, 0x2486]⟩,
  -- 150; 14774-15090
  ⟨cs! "0086_0203_004b", "AEON Labs", "ZW075", "Smart Energy Switch 3rd Edition", cs! "0086", cs! "0203", cs! "004B",
   [0x2400, 0x2420, 0x1422, 0x2425, 0x1427, 0x242b, 0x1430, 0x4432, 0x2456, 0x1059, 0x2470, 0x2472, 0x1484, 0x2485, 0x2486]⟩,
  -- 152; 15091-15405
  ⟨cs! "0086_0003_004e", "AEON Labs", "ZW078", "Heavy Duty Switch", cs! "0086", cs! "0003", cs! "004E",
   [0x2520, 0x2525, 0x2527, 0x252b, 0x252c, 0x6531, 0x4532, 0x2756, 0x2559, 0x275a, 0x375e, 0x2570, 0x3772, 0x2573, 0x2782, 0x3585, 0x3786, 0x20ef]⟩]

/-- database/devices.go 154-273 -/
def devRows1 : List DevRow := [
  -- 154; 15406-15720
  ⟨cs! "0086_0103_004e", "AEON Labs", "ZW078", "Heavy Duty Switch", cs! "0086", cs! "0103", cs! "004E",
   [0x2520, 0x2525, 0x2527, 0x252b, 0x252c, 0x6531, 0x4532, 0x2756, 0x2559, 0x275a, 0x375e, 0x2570, 0x3772, 0x2573, 0x2782, 0x3585, 0x3786, 0x20ef]⟩,
  -- 156; 15721-16035
  ⟨cs! "0086_0203_004e", "AEON Labs", "ZW078", "Heavy Duty Switch", cs! "0086", cs! "0203", cs! "004E",
   [0x2520, 0x2525, 0x2527, 0x252b, 0x252c, 0x6531, 0x4532, 0x2756, 0x2559, 0x275a, 0x375e, 0x2570, 0x3772, 0x2573, 0x2782, 0x3585, 0x3786, 0x20ef]⟩,
  -- 158; 16036-16235
  ⟨cs! "0086_0104_0050", "AEON Labs", "ZW080", "Siren Gen5", cs! "0086", cs! "0104", cs! "0050",
   [0x2400, 0x2420, 0x2525, 0x252b, 0x152c, 0x1559, 0x255e, 0x2570, 0x2572, 0x2573, 0x157a, 0x2585, 0x2586, 0x1598]⟩,
  -- 160; 16236-16435
  ⟨cs! "0086_0204_0050", "AEON Labs", "ZW080", "Siren Gen5", cs! "0086", cs! "0204", cs! "0050",
   [0x2400, 0x2420, 0x2525, 0x252b, 0x152c, 0x1559, 0x255e, 0x2570, 0x2572, 0x2573, 0x157a, 0x2585, 0x2586, 0x1598]⟩,
  -- 162; 16436-16542
  ⟨cs! "0086_0001_0058", "AEON Labs", "ZW088", "4 button keyfob - Gen 5", cs! "0086", cs! "0001", cs! "0058",
   [0x1400, 0x1420, 0x142b, 0x1559, 0x155a, 0x155e, 0x1570, 0x1572, 0x1573, 0x1580, 0x1584, 0x1585, 0x1586]⟩,
  -- 164; 16543-16649
  ⟨cs! "0086_0101_0058", "AEON Labs", "ZW088", "4 button keyfob - Gen 5", cs! "0086", cs! "0101", cs! "0058",
   [0x1400, 0x1420, 0x142b, 0x1559, 0x155a, 0x155e, 0x1570, 0x1572, 0x1573, 0x1580, 0x1584, 0x1585, 0x1586]⟩,
  -- 166; 16650-16756
  ⟨cs! "0086_0201_0058", "AEON Labs", "ZW088", "4 button keyfob - Gen 5", cs! "0086", cs! "0201", cs! "0058",
   [0x1400, 0x1420, 0x142b, 0x1559, 0x155a, 0x155e, 0x1570, 0x1572, 0x1573, 0x1580, 0x1584, 0x1585, 0x1586]⟩,
  -- 168; 16757-16945
  ⟨cs! "0086_0002_0059", "AEON Labs", "ZW089", "Recessed Door Sensor Gen5", cs! "0086", cs! "0002", cs! "0059",
   [0x2400, 0x2420, 0x2430, 0x2470, 0x2471, 0x2472, 0x2480, 0x3484, 0x2485, 0x2486]⟩,
  -- 170; 16946-17134
  ⟨cs! "0086_0102_0059", "AEON Labs", "ZW089", "Recessed Door Sensor Gen5", cs! "0086", cs! "0102", cs! "0059",
   [0x2400, 0x2420, 0x2430, 0x2470, 0x2471, 0x2472, 0x2480, 0x3484, 0x2485, 0x2486]⟩,
  -- 172; 17135-17323
  ⟨cs! "0086_0202_0059", "AEON Labs", "ZW089", "Recessed Door Sensor Gen5", cs! "0086", cs! "0202", cs! "0059",
   [0x2400, 0x2420, 0x2430, 0x2470, 0x2471, 0x2472, 0x2480, 0x3484, 0x2485, 0x2486]⟩,
  -- 174; 17324-17626
  ⟨cs! "0086_0002_005f", "AEON Labs", "ZW095", "Home Energy Meter - Gen 5 ", cs! "0086", cs! "0002", cs! "005F",
   [0x2420, 0x4732, 0x2756, 0x2759, 0x265a, 0x355e, 0x4760, 0x2770, 0x3772, 0x2773, 0x377a, 0x3785, 0x3786, 0x378e, 0x2598, 0x25ef]⟩,
  -- 176; 17627-17929
  ⟨cs! "0086_0102_005f", "AEON Labs", "ZW095", "Home Energy Meter - Gen 5 ", cs! "0086", cs! "0102", cs! "005F",
   [0x2420, 0x4732, 0x2756, 0x2759, 0x265a, 0x355e, 0x4760, 0x2770, 0x3772, 0x2773, 0x377a, 0x3785, 0x3786, 0x378e, 0x2598, 0x25ef]⟩,
  -- 178; 17930-18420
  ⟨cs! "0086_0003_0060", "AEON Labs", "ZW096", "Smart Switch 6", cs! "0086", cs! "0003", cs! "0060",
   [0x2400, 0x2420, 0x2425, 0x2427, 0x4432, 0x2033, 0x2470, 0x2472, 0x2485, 0x2486]⟩,
  -- 180; 18421-18911
  ⟨cs! "0086_0103_0060", "AEON Labs", "ZW096", "Smart Switch 6", cs! "0086", cs! "0103", cs! "0060",
   [0x2400, 0x2420, 0x2425, 0x2427, 0x4432, 0x2033, 0x2470, 0x2472, 0x2485, 0x2486]⟩,
  -- 182; 18912-19402
  ⟨cs! "0086_0203_0060", "AEON Labs", "ZW096", "Smart Switch 6", cs! "0086", cs! "0203", cs! "0060",
   [0x2400, 0x2420, 0x2425, 0x2427, 0x4432, 0x2033, 0x2470, 0x2472, 0x2485, 0x2486]⟩,
  -- 184; 19403-19893
  ⟨cs! "0086_1d03_0060", "AEON Labs", "ZW096", "Smart Switch 6", cs! "0086", cs! "1D03", cs! "0060",
   [0x2400, 0x2420, 0x2425, 0x2427, 0x4432, 0x2033, 0x2470, 0x2472, 0x2485, 0x2486]⟩,
  -- 186; 19894-20161
  ⟨cs! "0086_0002_0061", "AEON Labs", "ZW097", "Dry Contact Sensor", cs! "0086", cs! "0002", cs! "0061",
   [0x2400, 0x2620, 0x2630, 0x2759, 0x355e, 0x2670, 0x4771, 0x3572, 0x2673, 0x367a, 0x2680, 0x2582, 0x3684, 0x3785, 0x3486, 0x24ef]⟩,
  -- 188; 20162-20429
  ⟨cs! "0086_0102_0061", "AEON Labs", "ZW097", "Dry Contact Sensor", cs! "0086", cs! "0102", cs! "0061",
   [0x2400, 0x2620, 0x2630, 0x2759, 0x355e, 0x2670, 0x4771, 0x3572, 0x2673, 0x367a, 0x2680, 0x2582, 0x3684, 0x3785, 0x3486, 0x24ef]⟩,
  -- 190; 20430-20697
  ⟨cs! "0086_0202_0061", "AEON Labs", "ZW097", "Dry Contact Sensor", cs! "0086", cs! "0202", cs! "0061",
   [0x2400, 0x2620, 0x2630, 0x2759, 0x355e, 0x2670, 0x4771, 0x3572, 0x2673, 0x367a, 0x2680, 0x2582, 0x3684, 0x3785, 0x3486, 0x24ef]⟩,
  -- 192; 20698-21028
  ⟨cs! "0086_0003_0062", "AEON Labs", "ZW098", "LED Bulb", cs! "0086", cs! "0003", cs! "0062",
   [0x2400, 0x2420, 0x3426, 0x1427, 0x242b, 0x1432, 0x3433, 0x2470, 0x2472, 0x2485, 0x2486]⟩,
  -- 194; 21029-21359
  ⟨cs! "0086_0103_0062", "AEON Labs", "ZW098", "LED Bulb", cs! "0086", cs! "0103", cs! "0062",
   [0x2400, 0x2420, 0x3426, 0x1427, 0x242b, 0x1432, 0x3433, 0x2470, 0x2472, 0x2485, 0x2486]⟩,
  -- 196; 21360-21690
  ⟨cs! "0086_0203_0062", "AEON Labs", "ZW098", "LED Bulb", cs! "0086", cs! "0203", cs! "0062",
   [0x2400, 0x2420, 0x3426, 0x1427, 0x242b, 0x1432, 0x3433, 0x2470, 0x2472, 0x2485, 0x2486]⟩,
  -- 198; 21691-22159
  ⟨cs! "0086_0003_0063", "AEON Labs", "ZW099", "Smart Dimmer 6", cs! "0086", cs! "0003", cs! "0063",
   [0x2400, 0x2420, 0x3726, 0x2727, 0x4732, 0x2733, 0x2759, 0x275a, 0x375e, 0x5760, 0x2770, 0x3772, 0x2773, 0x377a, 0x2781, 0x2782, 0x3785, 0x3786, 0x478e, 0x2398, 0x27ef]⟩,
  -- 200; 22160-22628
  ⟨cs! "0086_0103_0063", "AEON Labs", "ZW099", "Smart Dimmer 6", cs! "0086", cs! "0103", cs! "0063",
   [0x2400, 0x2420, 0x3726, 0x2727, 0x4732, 0x2733, 0x2759, 0x275a, 0x375e, 0x5760, 0x2770, 0x3772, 0x2773, 0x377a, 0x2781, 0x2782, 0x3785, 0x3786, 0x478e, 0x2398, 0x27ef]⟩,
  -- 202; 22629-23097
  ⟨cs! "0086_0203_0063", "AEON Labs", "ZW099", "Smart Dimmer 6", cs! "0086", cs! "0203", cs! "0063",
   [0x2400, 0x2420, 0x3726, 0x2727, 0x4732, 0x2733, 0x2759, 0x275a, 0x375e, 0x5760, 0x2770, 0x3772, 0x2773, 0x377a, 0x2781, 0x2782, 0x3785, 0x3786, 0x478e, 0x2398, 0x27ef]⟩,
  -- 204; 23098-23566
  ⟨cs! "0086_1d03_0063", "AEON Labs", "ZW099", "Smart Dimmer 6", cs! "0086", cs! "1D03", cs! "0063",
   [0x2400, 0x2420, 0x3726, 0x2727, 0x4732, 0x2733, 0x2759, 0x275a, 0x375e, 0x5760, 0x2770, 0x3772, 0x2773, 0x377a, 0x2781, 0x2782, 0x3785, 0x3786, 0x478e, 0x2398, 0x27ef]⟩,
  -- 206; 23567-23984
  ⟨cs! "0086_0002_0064", "AEON Labs", "ZW100", "MultiSensor 6", cs! "0086", cs! "0002", cs! "0064",
   [0x2400, 0x2420, 0x2430, 0x6431, 0x2470, 0x4471, 0x2472, 0x2480, 0x3484, 0x2485, 0x2486]⟩,
  -- 208; 23985-24402
  ⟨cs! "0086_0102_0064", "AEON Labs", "ZW100", "MultiSensor 6", cs! "0086", cs! "0102", cs! "0064",
   [0x2400, 0x2420, 0x2430, 0x6431, 0x2470, 0x4471, 0x2472, 0x2480, 0x3484, 0x2485, 0x2486]⟩,
  -- 210; 24403-24820
  ⟨cs! "0086_0202_0064", "AEON Labs", "ZW100", "MultiSensor 6", cs! "0086", cs! "0202", cs! "0064",
   [0x2400, 0x2420, 0x2430, 0x6431, 0x2470, 0x4471, 0x2472, 0x2480, 0x3484, 0x2485, 0x2486]⟩,
  -- 212; 24821-25483
  ⟨cs! "0086_0103_006f", "AEON Labs", "ZW111", "Nano Dimmer ", cs! "0086", cs! "0103", cs! "006F",
   [0x2400, 0x2420, 0x2525, 0x4526, 0x2527, 0x252b, 0x252c, 0x4532, 0x2559, 0x255a, 0x355e, 0x2570, 0x5571, 0x3572, 0x2573, 0x457a, 0x2581, 0x1082, 0x3585, 0x3586]⟩,
  -- 214; 25484-26146
  ⟨cs! "0086_0203_006f", "AEON Labs", "ZW111", "Nano Dimmer ", cs! "0086", cs! "0203", cs! "006F",
   [0x2400, 0x2420, 0x2525, 0x4526, 0x2527, 0x252b, 0x252c, 0x4532, 0x2559, 0x255a, 0x355e, 0x2570, 0x5571, 0x3572, 0x2573, 0x457a, 0x2581, 0x1082, 0x3585, 0x3586]⟩,
  -- 216; 26147-26363
  ⟨cs! "0086_0002_0070", "AEON Labs", "ZW112", "Door/Window Sensor 6", cs! "0086", cs! "0002", cs! "0070",
   [0x2520, 0x2530, 0x1559, 0x155a, 0x155e, 0x2570, 0x2571, 0x2572, 0x1573, 0x357a, 0x2580, 0x3584, 0x2585, 0x2586, 0x1798]⟩,
  -- 218; 26364-26580
  ⟨cs! "0086_0102_0070", "AEON Labs", "ZW112", "Door/Window Sensor 6", cs! "0086", cs! "0102", cs! "0070",
   [0x2520, 0x2530, 0x1559, 0x155a, 0x155e, 0x2570, 0x2571, 0x2572, 0x1573, 0x357a, 0x2580, 0x3584, 0x2585, 0x2586, 0x1798]⟩,
  -- 220; 26581-26797
  ⟨cs! "0086_0202_0070", "AEON Labs", "ZW112", "Door/Window Sensor 6", cs! "0086", cs! "0202", cs! "0070",
   [0x2520, 0x2530, 0x1559, 0x155a, 0x155e, 0x2570, 0x2571, 0x2572, 0x1573, 0x357a, 0x2580, 0x3584, 0x2585, 0x2586, 0x1798]⟩,
  -- 222; 26798-27014
  ⟨cs! "0086_1d02_0070", "AEON Labs", "ZW112", "Door/Window Sensor 6", cs! "0086", cs! "1D02", cs! "0070",
   [0x2520, 0x2530, 0x1559, 0x155a, 0x155e, 0x2570, 0x2571, 0x2572, 0x1573, 0x357a, 0x2580, 0x3584, 0x2585, 0x2586, 0x1798]⟩,
  -- 224; 27015-27227
  ⟨cs! "0086_0004_0075", "AEON Labs", "ZW117", "Range Extender 6", cs! "0086", cs! "0004", cs! "0075",
   [0x2400, 0x2420, 0x3526, 0x2533, 0x2559, 0x275a, 0x275e, 0x2570, 0x2772, 0x2573, 0x257a, 0x3585, 0x3786]⟩,
  -- 226; 27228-27438
  ⟨cs! "0086_0002_0082", "AEON Labs", "ZW130", "WallMote Quad", cs! "0086", cs! "0002", cs! "0082",
   [0x2400, 0x2420, 0x2559, 0x255a, 0x355b, 0x255e, 0x3560, 0x2570, 0x5571, 0x2572, 0x2573, 0x257a, 0x2580, 0x3584, 0x3585, 0x3586, 0x458e]⟩,
  -- 228; 27439-27649
  ⟨cs! "0086_0102_0082", "AEON Labs", "ZW130", "WallMote Quad", cs! "0086", cs! "0102", cs! "0082",
   [0x2400, 0x2420, 0x2559, 0x255a, 0x355b, 0x255e, 0x3560, 0x2570, 0x5571, 0x2572, 0x2573, 0x257a, 0x2580, 0x3584, 0x3585, 0x3586, 0x458e]⟩,
  -- 230; 27650-27860
  ⟨cs! "0086_0202_0082", "AEON Labs", "ZW130", "WallMote Quad", cs! "0086", cs! "0202", cs! "0082",
   [0x2400, 0x2420, 0x2559, 0x255a, 0x355b, 0x255e, 0x3560, 0x2570, 0x5571, 0x2572, 0x2573, 0x257a, 0x2580, 0x3584, 0x3585, 0x3586, 0x458e]⟩,
  -- 232; 27861-27917
  ⟨cs! "0111_8200_0200", "Airline Mechanical Co., Ltd.", "ZDS-UD10", "Dimming Switch Module", cs! "0111", cs! "8200", cs! "0200",
   [0x2500, 0x2520, 0x3526, 0x2527, 0x2572, 0x2573, 0x2586]⟩,
  -- 234; 27918-28122
  ⟨cs! "008a_0005_0101", "BeNext", "BeNext Alarm Sound", "Alarm sound", cs! "008A", cs! "0005", cs! "0101",
   [0x2400, 0x2420, 0x2525, 0x2570, 0x2571, 0x2572, 0x2573, 0x2585, 0x2586, 0x258f]⟩,
  -- 236; 28123-28348
  ⟨cs! "008a_000d_0100", "BeNext", "builtInDimmer", "BeNext Built-in Dimmer", cs! "008A", cs! "000D", cs! "0100",
   [0x2400, 0x2420, 0x2426, 0x6431, 0x3432, 0x2470, 0x2472, 0x2485, 0x2486]⟩,
  -- 238; 28349-28488
  ⟨cs! "008a_0004_0100", "BeNext", "doorSensor", "BeNext Door Sensor", cs! "008A", cs! "0004", cs! "0100",
   [0x2400, 0x2420, 0x2530, 0x2531, 0x2570, 0x2571, 0x2572, 0x2580, 0x2584, 0x2585, 0x2586]⟩,
  -- 240; 28489-28628
  ⟨cs! "008a_0004_0101", "BeNext", "doorSensor", "BeNext Door Sensor", cs! "008A", cs! "0004", cs! "0101",
   [0x2400, 0x2420, 0x2530, 0x2531, 0x2570, 0x2571, 0x2572, 0x2580, 0x2584, 0x2585, 0x2586]⟩,
  -- 242; 28629-28792
  ⟨cs! "008a_0020_0001", "BeNext", "Energy Switch +", "Energy Switch +", cs! "008A", cs! "0020", cs! "0001",
   [0x2425, 0x2427, 0x4432, 0x2456, 0x2470, 0x2472, 0x2473, 0x2475, 0x2485, 0x2486]⟩,
  -- 244; 28793-28986
  ⟨cs! "008a_0021_0102", "BeNext", "Heating Control", "Thermostat for controlling the opentherm protocol", cs! "008A", cs! "0021", cs! "0102",
   [0x2420, 0x7431, 0x2440, 0x2443, 0x2456, 0x2472, 0x407a, 0x3485, 0x2486]⟩,
  -- 246; 28987-29243
  ⟨cs! "008a_0003_0101", "BeNext", "Molite", "Movement sensor with temperature and light sensor", cs! "008A", cs! "0003", cs! "0101",
   [0x2400, 0x2420, 0x2430, 0x6431, 0x2470, 0x2471, 0x2472, 0x2480, 0x2484, 0x2485, 0x2486]⟩,
  -- 248; 29244-29500
  ⟨cs! "008a_0003_0100", "BeNext", "Molite", "Movement sensor with temperature and light sensor", cs! "008A", cs! "0003", cs! "0100",
   [0x2400, 0x2420, 0x2430, 0x6431, 0x2470, 0x2471, 0x2472, 0x2480, 0x2484, 0x2485, 0x2486]⟩,
  -- 250; 29501-29598
  ⟨cs! "008a_002f_0100", "BeNext", "P1-dongle", "P1-dongle", cs! "008A", cs! "002F", cs! "0100",
   [0x4532, 0x2556, 0x1559, 0x255a, 0x255e, 0x3560, 0x2570, 0x2572, 0x157a, 0x2585, 0x2586, 0x1598]⟩,
  -- 252; 29599-29793
  ⟨cs! "008a_0018_0100", "BeNext", "plugInDimmer", "BeNext Plug-in Dimmer", cs! "008A", cs! "0018", cs! "0100",
   [0x2400, 0x2420, 0x2526, 0x2527, 0x6531, 0x3532, 0x2570, 0x2572, 0x2573, 0x2585, 0x2586]⟩,
  -- 254; 29794-29910
  ⟨cs! "008a_0008_0101", "BeNext", "powerSwitch", "BeNext Power Switch EU", cs! "008A", cs! "0008", cs! "0101",
   [0x2400, 0x2420, 0x2525, 0x2527, 0x2570, 0x2572, 0x2573, 0x2575, 0x2585, 0x2586]⟩,
  -- 256; 29911-30060
  ⟨cs! "008a_0007_0101", "BeNext", "Tag Reader", "Tag Reader", cs! "008A", cs! "0007", cs! "0101",
   [0x2400, 0x2420, 0x2525, 0x2563, 0x2570, 0x3571, 0x2572, 0x2476, 0x2580, 0x2584, 0x2585, 0x2586]⟩,
  -- 258; 30061-30207
  ⟨cs! "0169_0001_0001", "Bönig und Kallenbach oHG", "POPE005206", "Z Weather", cs! "0169", cs! "0001", cs! "0001",
   [0x2400, 0x2420, 0x1430, 0x7531, 0x4532, 0x2559, 0x145a, 0x255e, 0x2570, 0x2572, 0x2573, 0x2580, 0x3584, 0x2585, 0x2586, 0x2589, 0x158e, 0x258f, 0x159b]⟩,
  -- 260; 30208-30279
  ⟨cs! "0138_0001_0002", "BRK Brands, Inc.", "ZCOMBO", "Smoke and Carbon Monoxide Alarm", cs! "0138", cs! "0001", cs! "0002",
   [0x2400, 0x2420, 0x2470, 0x2471, 0x2472, 0x2480, 0x2485, 0x2486]⟩,
  -- 262; 30280-30351
  ⟨cs! "0138_0001_0001", "BRK Brands, Inc.", "ZSMOKE", "Smoke Alarm", cs! "0138", cs! "0001", cs! "0001",
   [0x2400, 0x2420, 0x2470, 0x2471, 0x2472, 0x2480, 0x2485, 0x2486]⟩,
  -- 264; 30352-30433
  ⟨cs! "0166_0100_0100", "CBCC Domotique SAS", "SW-ZCS-1", "Cord Switch", cs! "0166", cs! "0100", cs! "0100",
   [0x2400, 0x2420, 0x2525, 0x2527, 0x2572, 0x2585, 0x2586]⟩,
  -- 266; 30434-30529
  ⟨cs! "0116_0002_0001", "Chromagic Technologies Corporation", "HSM02", "Door Window Sensor", cs! "0116", cs! "0002", cs! "0001",
   [0x2400, 0x2520, 0x2530, 0x2570, 0x2571, 0x2572, 0x2580, 0x2584, 0x2585, 0x2586]⟩,
  -- 268; 30530-30625
  ⟨cs! "0116_0001_0001", "Chromagic Technologies Corporation", "SM103", "Door/Window Contact", cs! "0116", cs! "0001", cs! "0001",
   [0x2400, 0x2520, 0x2530, 0x2570, 0x2571, 0x2572, 0x2580, 0x2584, 0x2585, 0x2586]⟩,
  -- 270; 30626-30827
  ⟨cs! "0200_0003_0002", "Cloud Media", "A803N", "Motion Sensor", cs! "0200", cs! "0003", cs! "0002",
   [0x2400, 0x2420, 0x3430, 0x6431, 0x2470, 0x2471, 0x2472, 0x2480, 0x3484, 0x2485, 0x2486]⟩,
  -- 272; 30828-30918
  ⟨cs! "0179_0013_0021", "ConnectHome", "CH-201", "CH-201 Thermostat", cs! "0179", cs! "0013", cs! "0021",
   [0x2400, 0x2420, 0x5531, 0x2540, 0x2542, 0x2543, 0x3560, 0x2570, 0x2572, 0x257a, 0x2585, 0x2586, 0x358e]⟩]

/-- database/devices.go 274-393 -/
def devRows2 : List DevRow := [
  -- 274; 30919-30963
  ⟨cs! "001a_5342_0000", "Cooper Wiring Devices", "RF9500", "Battery Switch", cs! "001A", cs! "5342", cs! "0000",
   [0x2400, 0x2420, 0x2472, 0x2477, 0x2485, 0x2486]⟩,
  -- 276; 30964-31126
  ⟨cs! "001a_534c_0000", "Cooper Wiring Devices", "RF9501", "15A Light Switch", cs! "001A", cs! "534C", cs! "0000",
   [0x2400, 0x2420, 0x2425, 0x2427, 0x242b, 0x2470, 0x2471, 0x2472, 0x2477, 0x2482, 0x2485, 0x2486, 0x2487]⟩,
  -- 278; 31127-31208
  ⟨cs! "001a_5352_0000", "Cooper Wiring Devices", "RF9517", "Accessory Switch", cs! "001A", cs! "5352", cs! "0000",
   [0x2400, 0x2520, 0x2425, 0x2427, 0x242b, 0x2470, 0x2472, 0x2477, 0x2485, 0x2486, 0x2487]⟩,
  -- 280; 31209-31317
  ⟨cs! "001a_4449_0002", "Cooper Wiring Devices", "RF9534WS", "Smart Dimmer", cs! "001A", cs! "4449", cs! "0002",
   [0x2400, 0x2420, 0x3526, 0x2527, 0x252b, 0x252c, 0x2570, 0x2571, 0x2572, 0x2573, 0x2575, 0x2577, 0x2582, 0x2585, 0x2586, 0x2587]⟩,
  -- 282; 31318-31559
  ⟨cs! "001a_4449_0101", "Cooper Wiring Devices", "RF9540-N", "All Load Dimmer Light Switch", cs! "001A", cs! "4449", cs! "0101",
   [0x2400, 0x2420, 0x3526, 0x2527, 0x252b, 0x152c, 0x2570, 0x2571, 0x2572, 0x2573, 0x2575, 0x2577, 0x2582, 0x2585, 0x2586, 0x2587]⟩,
  -- 284; 31560-31756
  ⟨cs! "001a_4441_0000", "Cooper Wiring Devices", "RF9542", "Dimmer Accessory Switch", cs! "001A", cs! "4441", cs! "0000",
   [0x2400, 0x2420, 0x3526, 0x2527, 0x252b, 0x152c, 0x2570, 0x2571, 0x2572, 0x2573, 0x2575, 0x2577, 0x2585, 0x2586, 0x2587]⟩,
  -- 286; 31757-31836
  ⟨cs! "001a_5244_0000", "Cooper Wiring Devices", "RFTR9505", "Duplex receptical", cs! "001A", cs! "5244", cs! "0000",
   [0x2400, 0x2420, 0x2425, 0x2427, 0x242b, 0x2470, 0x2471, 0x2472, 0x2477, 0x2482, 0x2485, 0x2486, 0x2487]⟩,
  -- 288; 31837-31920
  ⟨cs! "001a_574d_0000", "Cooper Wiring Devices", "RFWC5", "5-Scene Keypad", cs! "001A", cs! "574D", cs! "0000",
   [0x2400, 0x2420, 0x1521, 0x2522, 0x142b, 0x152d, 0x2570, 0x2572, 0x2577, 0x2585, 0x2586, 0x2587]⟩,
  -- 290; 31921-31995
  ⟨cs! "0248_0003_0001", "Coqon", "PSMZ0001", "Plug module", cs! "0248", cs! "0003", cs! "0001",
   [0x2420, 0x2425, 0x3432, 0x2459, 0x245a, 0x245e, 0x2470, 0x2472, 0x2473, 0x247a, 0x2485, 0x2486]⟩,
  -- 292; 31996-32080
  ⟨cs! "0002_0115_a010", "Danfoss", "010101", "Popp Wireless Thermostatic Valve TRV", cs! "0002", cs! "0115", cs! "A010",
   [0x2400, 0x2420, 0x7531, 0x2543, 0x2546, 0x2572, 0x3575, 0x2580, 0x2581, 0x3584, 0x2586, 0x258f]⟩,
  -- 294; 32081-32300
  ⟨cs! "0002_0003_8010", "Danfoss", "014G0160", "Z-Wave room sensor", cs! "0002", cs! "0003", cs! "8010",
   [0x2400, 0x2420, 0x6431, 0x3443, 0x2470, 0x2472, 0x2480, 0x3484, 0x2486, 0x2487, 0x248f]⟩,
  -- 296; 32301-32548
  ⟨cs! "0002_0248_a020", "Danfoss", "DTHERMZ5", "Z-Wave room sensor", cs! "0002", cs! "0248", cs! "A020",
   [0x2400, 0x2520, 0x7531, 0x2543, 0x2553, 0x255b, 0x2570, 0x2572, 0x3575, 0x2580, 0x3584, 0x3586, 0x2587, 0x258f]⟩,
  -- 298; 32549-32633
  ⟨cs! "0002_0248_a010", "Danfoss", "DTHERMZ6", "Living Connect Z Thermostat", cs! "0002", cs! "0248", cs! "A010",
   [0x2400, 0x2420, 0x7531, 0x2543, 0x2546, 0x2572, 0x3575, 0x2580, 0x2581, 0x3584, 0x2586, 0x258f]⟩,
  -- 300; 32634-32704
  ⟨cs! "0002_0005_0004", "Danfoss", "LC-13", "Living Connect Z Thermostat", cs! "0002", cs! "0005", cs! "0004",
   [0x2400, 0x2420, 0x3443, 0x2472, 0x1575, 0x2480, 0x1481, 0x3484, 0x2486, 0x248f, 0x149c]⟩,
  -- 302; 32705-32775
  ⟨cs! "0002_8005_0001", "Danfoss", "LC-13", "Living Connect Z Thermostat", cs! "0002", cs! "8005", cs! "0001",
   [0x2400, 0x2420, 0x3443, 0x2472, 0x1575, 0x2480, 0x1481, 0x3484, 0x2486, 0x248f, 0x149c]⟩,
  -- 304; 32776-32846
  ⟨cs! "0002_8005_0002", "Danfoss", "LC-13", "Living Connect Z Thermostat", cs! "0002", cs! "8005", cs! "0002",
   [0x2400, 0x2420, 0x3443, 0x2472, 0x1575, 0x2480, 0x1481, 0x3484, 0x2486, 0x248f, 0x149c]⟩,
  -- 306; 32847-32901
  ⟨cs! "0002_0005_0003", "Danfoss", "LCZ251", "Living Connect Z Thermostat 2.51", cs! "0002", cs! "0005", cs! "0003",
   [0x2400, 0x2420, 0x3443, 0x2472, 0x2480, 0x3484, 0x2486, 0x248f]⟩,
  -- 308; 32902-32982
  ⟨cs! "0002_0005_0175", "Danfoss", "MT02650", "Devolo Thermostat (09356)", cs! "0002", cs! "0005", cs! "0175",
   [0x2500, 0x2520, 0x6531, 0x3543, 0x1556, 0x2572, 0x3575, 0x2580, 0x3584, 0x2586, 0x258f]⟩,
  -- 310; 32983-33244
  ⟨cs! "0175_0001_0011", "Devolo", "MT02646", "Home Control Metering Plug", cs! "0175", cs! "0001", cs! "0011",
   [0x2400, 0x2520, 0x2525, 0x2527, 0x4532, 0x2559, 0x255a, 0x355e, 0x2570, 0x2571, 0x3572, 0x2573, 0x3575, 0x357a, 0x3585, 0x3586, 0x2598]⟩,
  -- 312; 33245-33518
  ⟨cs! "0175_0002_000d", "Devolo", "MT02647", "Devolo Motion Sensor", cs! "0175", cs! "0002", cs! "000D",
   [0x2400, 0x2420, 0x3430, 0x6431, 0x2462, 0x2463, 0x2470, 0x2471, 0x2672, 0x2475, 0x2476, 0x2480, 0x3484, 0x2485, 0x2486, 0x248f, 0x2498]⟩,
  -- 314; 33519-33813
  ⟨cs! "0175_0002_000e", "Devolo", "MT02648", "Door/Window Contact", cs! "0175", cs! "0002", cs! "000E",
   [0x2400, 0x2420, 0x3530, 0x6531, 0x1559, 0x255a, 0x255e, 0x2570, 0x4571, 0x2572, 0x2573, 0x157a, 0x2580, 0x3584, 0x2585, 0x2586, 0x258f, 0x1598]⟩,
  -- 316; 33814-34228
  ⟨cs! "0175_0100_0101", "Devolo", "MT2652", "Scene Switch", cs! "0175", cs! "0100", cs! "0101",
   [0x2400, 0x2420, 0x252d, 0x2559, 0x255a, 0x255b, 0x255e, 0x2570, 0x2572, 0x2573, 0x2580, 0x3584, 0x2585, 0x3586, 0x258e, 0x258f]⟩,
  -- 318; 34229-34667
  ⟨cs! "0175_0100_0102", "Devolo", "MT2653", "Keyfob", cs! "0175", cs! "0100", cs! "0102",
   [0x2400, 0x2420, 0x152d, 0x1559, 0x255a, 0x255b, 0x255e, 0x2570, 0x2572, 0x2573, 0x2580, 0x3584, 0x2585, 0x2586, 0x158e, 0x258f]⟩,
  -- 320; 34668-34922
  ⟨cs! "0175_0002_0020", "Devolo", "MT02755", "Humidity Sensor", cs! "0175", cs! "0002", cs! "0020",
   [0x2400, 0x2420, 0x3530, 0x6531, 0x2559, 0x255a, 0x255e, 0x2570, 0x5571, 0x2572, 0x2573, 0x257a, 0x2580, 0x3584, 0x3585, 0x3586, 0x258f, 0x1598]⟩,
  -- 322; 34923-35094
  ⟨cs! "0175_0002_0021", "Devolo", "MT2756", "Devolo MT2756 Flood Sensor", cs! "0175", cs! "0002", cs! "0021",
   [0x2400, 0x2420, 0x1430, 0x2559, 0x255a, 0x255e, 0x2572, 0x2573, 0x257a, 0x1485, 0x3586, 0x258f, 0x1598]⟩,
  -- 324; 35095-35162
  ⟨cs! "0175_0001_0001", "Devolo", "PAN11", "Smart Energy Plug-in Switch", cs! "0175", cs! "0001", cs! "0001",
   [0x2400, 0x2520, 0x2525, 0x2527, 0x4532, 0x2570, 0x2572, 0x2585, 0x2586]⟩,
  -- 326; 35163-35284
  ⟨cs! "0175_0004_000a", "Devolo", "ph-pse02", "Multisound indoor siren (Zipato/Devolo)", cs! "0175", cs! "0004", cs! "000A",
   [0x2400, 0x2420, 0x2425, 0x1026, 0x3430, 0x2459, 0x245a, 0x245e, 0x2470, 0x5471, 0x2472, 0x2473, 0x247a, 0x3485, 0x3486]⟩,
  -- 328; 35285-35351
  ⟨cs! "0175_0002_0018", "Devolo", "PST02-1B", "Multisensor", cs! "0175", cs! "0002", cs! "0018",
   [0x2400, 0x2420, 0x3530, 0x6531, 0x2470, 0x2472, 0x2480, 0x3484, 0x3485, 0x2486]⟩,
  -- 330; 35352-35715
  ⟨cs! "0108_0002_000e", "D-Link", "DCH-Z110", "Door & Window Sensor", cs! "0108", cs! "0002", cs! "000E",
   [0x2400, 0x2420, 0x3530, 0x6531, 0x1559, 0x255a, 0x255e, 0x2570, 0x5571, 0x2572, 0x2573, 0x157a, 0x2580, 0x3584, 0x2585, 0x2586, 0x258f, 0x1598]⟩,
  -- 332; 35716-36051
  ⟨cs! "0108_0002_000d", "D-Link", "DCH-Z120", "Battery Motion Sensor", cs! "0108", cs! "0002", cs! "000D",
   [0x2400, 0x2420, 0x3530, 0x6531, 0x2570, 0x5571, 0x2472, 0x2580, 0x3584, 0x2585, 0x2586, 0x258f]⟩,
  -- 334; 36052-36183
  ⟨cs! "0108_0004_000a", "D-Link", "DCH-Z510", "Siren", cs! "0108", cs! "0004", cs! "000A",
   [0x2400, 0x2420, 0x2425, 0x2559, 0x255a, 0x255e, 0x1470, 0x4071, 0x2572, 0x2573, 0x357a, 0x2586, 0x1598]⟩,
  -- 336; 36184-36318
  ⟨cs! "020e_4c42_3135", "Domitech Products, LLC", "ZB22", "Smart LED Light Bulb", cs! "020E", cs! "4C42", cs! "3135",
   [0x2400, 0x2420, 0x1422, 0x2526, 0x2527, 0x2559, 0x155a, 0x255e, 0x2570, 0x2572, 0x2573, 0x157a, 0x2585, 0x2586]⟩,
  -- 338; 36319-36412
  ⟨cs! "020e_4754_3038", "Domitech Products, LLC", "DTA19", "Smart LED Light", cs! "020E", cs! "4754", cs! "3038",
   [0x2400, 0x2420, 0x2426, 0x1427, 0x2470, 0x2472, 0x2485, 0x2486]⟩,
  -- 340; 36413-36506
  ⟨cs! "020e_4c42_3134", "Domitech Products, LLC", "DTA19", "Smart LED Light", cs! "020E", cs! "4C42", cs! "3134",
   [0x2400, 0x2420, 0x2426, 0x1427, 0x2470, 0x2472, 0x2485, 0x2486]⟩,
  -- 342; 36507-36619
  ⟨cs! "0184_4447_3031", "Dragon Tech Industrial, Ltd.", "PA-100", "Plug-in On/Off Switch", cs! "0184", cs! "4447", cs! "3031",
   [0x2400, 0x2420, 0x2525, 0x2527, 0x2559, 0x255a, 0x255e, 0x2570, 0x2572, 0x2573, 0x257a, 0x3585, 0x3586]⟩,
  -- 344; 36620-36754
  ⟨cs! "0184_4447_3034", "Dragon Tech Industrial, Ltd.", "WD-100", "Wall Dimmer Switch", cs! "0184", cs! "4447", cs! "3034",
   [0x2400, 0x2420, 0x2526, 0x2527, 0x2559, 0x255a, 0x245b, 0x255e, 0x2570, 0x2572, 0x2573, 0x257a, 0x2585, 0x2586]⟩,
  -- 346; 36755-36889
  ⟨cs! "0184_4744_3032", "Dragon Tech Industrial, Ltd.", "WD-100", "Wall Dimmer Switch", cs! "0184", cs! "4744", cs! "3032",
   [0x2400, 0x2420, 0x2526, 0x2527, 0x2559, 0x255a, 0x245b, 0x255e, 0x2570, 0x2572, 0x2573, 0x257a, 0x2585, 0x2586]⟩,
  -- 348; 36890-37024
  ⟨cs! "0184_4447_3033", "Dragon Tech Industrial, Ltd.", "WS-100", "Wall On/Off Switch", cs! "0184", cs! "4447", cs! "3033",
   [0x2400, 0x2420, 0x2525, 0x2527, 0x1559, 0x255a, 0x245b, 0x255e, 0x2570, 0x2572, 0x2573, 0x157a, 0x2585, 0x2586]⟩,
  -- 350; 37025-37089
  ⟨cs! "014a_0001_0002", "Ecolink", "DWZWAVE2", "Z-Wave Door/Window Sensor", cs! "014A", cs! "0001", cs! "0002",
   [0x2400, 0x2420, 0x2430, 0x2470, 0x3471, 0x3472, 0x2480, 0x3484, 0x3485, 0x3486]⟩,
  -- 352; 37090-37154
  ⟨cs! "014a_0004_0002", "Ecolink", "DWZWAVE2", "Z-Wave Door/Window Sensor", cs! "014A", cs! "0004", cs! "0002",
   [0x2400, 0x2420, 0x2430, 0x2470, 0x3471, 0x3472, 0x2480, 0x3484, 0x3485, 0x3486]⟩,
  -- 354; 37155-37273
  ⟨cs! "014a_0004_0001", "Ecolink", "Ecolink PIR v2.5", "Z-Wave PIR Motion Sensor v2.5", cs! "014A", cs! "0004", cs! "0001",
   [0x2400, 0x2420, 0x3430, 0x2459, 0x145a, 0x245e, 0x2470, 0x6471, 0x2472, 0x2473, 0x2480, 0x3484, 0x3485, 0x3486]⟩,
  -- 356; 37274-37355
  ⟨cs! "014a_0001_0001", "Ecolink", "Ecolink PIR", "Z-Wave PIR Motion Sensor", cs! "014A", cs! "0001", cs! "0001",
   [0x2400, 0x2420, 0x2430, 0x2470, 0x2471, 0x2472, 0x2480, 0x3484, 0x2485, 0x2486]⟩,
  -- 358; 37356-37451
  ⟨cs! "014a_0004_0003", "Ecolink", "TILT-ZWAVE2.5-ECO", "Z-wave Plus Gold Plated Reliability Garage Door Tilt Sensor", cs! "014A", cs! "0004", cs! "0003",
   [0x2400, 0x2420, 0x3530, 0x2559, 0x145a, 0x255e, 0x2570, 0x6571, 0x2572, 0x2573, 0x2580, 0x3584, 0x3585, 0x3586]⟩,
  -- 360; 37452-37516
  ⟨cs! "014a_0001_0003", "Ecolink", "TILTZWAVE2", "Z-Wave Garage Door Sensor", cs! "014A", cs! "0001", cs! "0003",
   [0x2400, 0x2420, 0x2430, 0x2470, 0x2471, 0x2472, 0x2480, 0x3484, 0x2485, 0x2486]⟩,
  -- 362; 37517-37566
  ⟨cs! "0157_0003_0512", "EcoNet Controls", "EBV-105", "Wireless Water Shutoff Valve", cs! "0157", cs! "0003", cs! "0512",
   [0x2400, 0x2420, 0x2425, 0x2427, 0x2472, 0x2485, 0x2486]⟩,
  -- 364; 37567-37622
  ⟨cs! "0157_0100_0100", "EcoNet Controls", "EV100", "Z-Vent ZWave Controlled HVAC Air Register", cs! "0157", cs! "0100", cs! "0100",
   [0x2400, 0x2520, 0x4526, 0x2572, 0x1577, 0x1580, 0x2586]⟩,
  -- 366; 37623-37707
  ⟨cs! "0157_0003_0002", "EcoNet Controls", "GR-105N", "Z-Wave Motor for water/gas ball valves", cs! "0157", cs! "0003", cs! "0002",
   [0x2400, 0x2520, 0x2525, 0x2527, 0x2559, 0x145a, 0x255e, 0x1570, 0x2572, 0x2573, 0x3585, 0x3586]⟩,
  -- 368; 37708-37804
  ⟨cs! "021f_0003_0088", "Elexa Consumer Products Inc.", "DMS01", "Dome Wireless Siren", cs! "021F", cs! "0003", cs! "0088",
   [0x2400, 0x2420, 0x2525, 0x2559, 0x255a, 0x255e, 0x2570, 0x7571, 0x2572, 0x2573, 0x2580, 0x3585, 0x3586, 0x2587]⟩,
  -- 370; 37805-37865
  ⟨cs! "011a_0101_0102", "Wenzhou MTLC Electric Appliances Co.,Ltd.", "Enerwave ZW15S", "Enerwave ZW15S Binary Switch", cs! "011A", cs! "0101", cs! "0102",
   [0x2400, 0x2420, 0x2525, 0x2527, 0x2570, 0x2572, 0x2585, 0x2586]⟩,
  -- 372; 37866-37920
  ⟨cs! "011a_0101_0103", "Wenzhou MTLC Electric Appliances Co.,Ltd.", "ZW15R ", "Duplex receptacle", cs! "011A", cs! "0101", cs! "0103",
   [0x2400, 0x2420, 0x2425, 0x2427, 0x2470, 0x2472, 0x2485, 0x2486]⟩,
  -- 374; 37921-37987
  ⟨cs! "011a_0101_0603", "Wenzhou MTLC Electric Appliances Co.,Ltd.", "ZW20R", "20A Tamper Resistant Duplex Receptacle", cs! "011A", cs! "0101", cs! "0603",
   [0x2400, 0x2420, 0x2425, 0x2427, 0x2470, 0x2472, 0x2486]⟩,
  -- 376; 37988-38148
  ⟨cs! "011a_0111_0101", "Wenzhou MTLC Electric Appliances Co.,Ltd.", "ZW20RM", "In-wall Smart Meter  Duplex Receptacle", cs! "011A", cs! "0111", cs! "0101",
   [0x2400, 0x2420, 0x2526, 0x2527, 0x3531, 0x3532, 0x2570, 0x2572, 0x2585, 0x2586]⟩,
  -- 378; 38149-38237
  ⟨cs! "011a_0102_0201", "Wenzhou MTLC Electric Appliances Co.,Ltd.", "ZW500D", "Dimmer", cs! "011A", cs! "0102", cs! "0201",
   [0x2400, 0x2420, 0x3426, 0x2427, 0x2470, 0x2472, 0x2485, 0x2486]⟩,
  -- 380; 38238-38398
  ⟨cs! "011a_0111_0201", "Wenzhou MTLC Electric Appliances Co.,Ltd.", "ZW500DM", "In-wall Smart Meter Dimmer Switch", cs! "011A", cs! "0111", cs! "0201",
   [0x2400, 0x2420, 0x2525, 0x2527, 0x3531, 0x3532, 0x2570, 0x2572, 0x2585, 0x2586]⟩,
  -- 382; 38399-38478
  ⟨cs! "011a_0111_0605", "Wenzhou MTLC Electric Appliances Co.,Ltd.", "ZWM-RSM1", "Smart Single Relay Switch Module", cs! "011A", cs! "0111", cs! "0605",
   [0x2400, 0x2520, 0x2525, 0x2527, 0x2559, 0x255a, 0x255e, 0x2572, 0x2573, 0x3585, 0x3586]⟩,
  -- 384; 38479-38527
  ⟨cs! "011a_0101_0104", "Wenzhou MTLC Electric Appliances Co.,Ltd.", "ZWN-333", "Plug-in Appliance Module", cs! "011A", cs! "0101", cs! "0104",
   [0x2400, 0x2420, 0x2525, 0x2527, 0x2572, 0x2586]⟩,
  -- 386; 38528-38597
  ⟨cs! "011a_0601_0901", "Wenzhou MTLC Electric Appliances Co.,Ltd.", "ZWN-BPC", "PIR Sensor", cs! "011A", cs! "0601", cs! "0901",
   [0x2400, 0x2420, 0x2430, 0x2470, 0x2472, 0x2480, 0x3484, 0x2485, 0x2486]⟩,
  -- 388; 38598-38670
  ⟨cs! "011a_0101_5605", "Wenzhou MTLC Electric Appliances Co.,Ltd.", "ZWN-RSM1-PLUS", "Smart Relay Switch Module", cs! "011A", cs! "0101", cs! "5605",
   [0x2400, 0x2520, 0x2525, 0x2527, 0x2570, 0x2572, 0x3585, 0x3586]⟩,
  -- 390; 38671-38755
  ⟨cs! "011a_0101_5606", "Wenzhou MTLC Electric Appliances Co.,Ltd.", "ZWN-RSM2", "Smart Dual Relay Switch Module", cs! "011A", cs! "0101", cs! "5606",
   [0x2400, 0x2520, 0x2525, 0x2527, 0x3560, 0x2570, 0x2572, 0x3585, 0x3586, 0x358e]⟩,
  -- 392; 38756-38799
  ⟨cs! "011a_0801_0b03", "Wenzhou MTLC Electric Appliances Co.,Ltd.", "ZWN-SC7", "Scene Controller", cs! "011A", cs! "0801", cs! "0B03",
   [0x2400, 0x2420, 0x202b, 0x2472, 0x2485, 0x2486]⟩]

/-- database/devices.go 394-513 -/
def devRows3 : List DevRow := [
  -- 394; 38800-38879
  ⟨cs! "0148_0002_0001", "Eurotronics", "CometZ", "Thermostatic Valve", cs! "0148", cs! "0002", cs! "0001",
   [0x2400, 0x2520, 0x4526, 0x5531, 0x2540, 0x2543, 0x2572, 0x2577, 0x2580, 0x3584, 0x2586]⟩,
  -- 396; 38880-38949
  ⟨cs! "0148_0001_0001", "Eurotronics", "StellaZ", "Thermostatic Valve", cs! "0148", cs! "0001", cs! "0001",
   [0x2400, 0x2420, 0x4426, 0x1430, 0x5431, 0x3440, 0x3443, 0x2472, 0x2480, 0x3484, 0x2486]⟩,
  -- 398; 38950-39029
  ⟨cs! "0135_000b_0001", "Everspring (135)", "ST812", "Flood sensor", cs! "0135", cs! "000B", cs! "0001",
   [0x2400, 0x2520, 0x2570, 0x2572, 0x2580, 0x3584, 0x2585, 0x2586, 0x259c]⟩,
  -- 400; 39030-39090
  ⟨cs! "0060_0003_0001", "Everspring", "AD130", "Dimmer Plugin", cs! "0060", cs! "0003", cs! "0001",
   [0x2400, 0x2420, 0x2526, 0x2527, 0x2572, 0x2573, 0x2575, 0x2586]⟩,
  -- 402; 39091-39261
  ⟨cs! "0060_0003_0002", "Everspring", "AD146", "In-Wall Dimmer Module", cs! "0060", cs! "0003", cs! "0002",
   [0x2400, 0x2520, 0x2526, 0x2527, 0x2559, 0x255a, 0x255e, 0x2570, 0x4571, 0x2572, 0x2573, 0x257a, 0x2585, 0x3586]⟩,
  -- 404; 39262-39365
  ⟨cs! "0060_0003_0003", "Everspring", "AD147", "Z-Wave Dimmer Plug", cs! "0060", cs! "0003", cs! "0003",
   [0x2400, 0x2420, 0x2426, 0x2427, 0x2470, 0x2471, 0x2472, 0x2485, 0x2486]⟩,
  -- 406; 39366-39421
  ⟨cs! "0060_0004_0001", "Everspring", "AN157", "Switch Plugin", cs! "0060", cs! "0004", cs! "0001",
   [0x2420, 0x2525, 0x2527, 0x2572, 0x2573, 0x2575, 0x2586]⟩,
  -- 408; 39422-39477
  ⟨cs! "0060_0104_0001", "Everspring", "AN157", "Switch Plugin", cs! "0060", cs! "0104", cs! "0001",
   [0x2420, 0x2525, 0x2527, 0x2572, 0x2573, 0x2575, 0x2586]⟩,
  -- 410; 39478-39581
  ⟨cs! "0060_0004_0002", "Everspring", "AN158", "Switch Meter Plugin", cs! "0060", cs! "0004", cs! "0002",
   [0x2400, 0x2420, 0x2425, 0x2427, 0x3432, 0x2470, 0x2471, 0x2472, 0x2485, 0x2486]⟩,
  -- 412; 39582-39705
  ⟨cs! "0060_0004_0005", "Everspring", "AN163", "Metering Power Switch", cs! "0060", cs! "0004", cs! "0005",
   [0x2400, 0x2520, 0x2525, 0x2527, 0x3532, 0x2570, 0x2571, 0x2572, 0x3585, 0x2586]⟩,
  -- 414; 39706-39859
  ⟨cs! "0060_0004_0008", "Everspring", "AN179", "In-Wall Switch Module", cs! "0060", cs! "0004", cs! "0008",
   [0x2400, 0x2520, 0x2525, 0x2527, 0x2559, 0x255a, 0x255e, 0x2570, 0x4571, 0x2572, 0x2573, 0x257a, 0x2585, 0x3586]⟩,
  -- 416; 39860-40013
  ⟨cs! "0060_0011_0002", "Everspring", "AN179", "In-Wall Switch Module", cs! "0060", cs! "0011", cs! "0002",
   [0x2400, 0x2520, 0x2525, 0x2527, 0x2559, 0x255a, 0x255e, 0x2570, 0x4571, 0x2572, 0x2573, 0x257a, 0x2585, 0x3586]⟩,
  -- 418; 40014-40111
  ⟨cs! "0060_0004_0007", "Everspring", " AN1802", "Switch without metering", cs! "0060", cs! "0004", cs! "0007",
   [0x2400, 0x2520, 0x2525, 0x2527, 0x2559, 0x255a, 0x255e, 0x2570, 0x5571, 0x2572, 0x2573, 0x257a, 0x3585, 0x3586]⟩,
  -- 420; 40112-40314
  ⟨cs! "0060_0004_0006", "Everspring", "AN181", "Mini Plug Switch with Metering (Gen5)", cs! "0060", cs! "0004", cs! "0006",
   [0x2400, 0x2520, 0x2522, 0x2525, 0x2527, 0x4532, 0x1559, 0x255a, 0x255e, 0x2570, 0x4571, 0x2572, 0x2573, 0x157a, 0x2585, 0x2586]⟩,
  -- 422; 40315-40391
  ⟨cs! "0060_0010_0001", "Everspring", "HAC01", "In-Wall Remote Insert", cs! "0060", cs! "0010", cs! "0001",
   [0x2400, 0x2420, 0x1422, 0x2425, 0x2470, 0x2472, 0x2485, 0x2486]⟩,
  -- 424; 40392-40489
  ⟨cs! "0060_0202_0001", "Everspring", "HSM02", "Door/Window Contact", cs! "0060", cs! "0202", cs! "0001",
   [0x2400, 0x2420, 0x2430, 0x2470, 0x2471, 0x2472, 0x2480, 0x3484, 0x2485, 0x2486]⟩,
  -- 426; 40490-40587
  ⟨cs! "0060_0002_0002", "Everspring", "HSM02", "Door/Window Contact", cs! "0060", cs! "0002", cs! "0002",
   [0x2400, 0x2420, 0x2430, 0x2470, 0x2471, 0x2472, 0x2480, 0x3484, 0x2485, 0x2486]⟩,
  -- 428; 40588-40738
  ⟨cs! "0060_0001_0003", "Everspring", "HSP02", "Motion Detector", cs! "0060", cs! "0001", cs! "0003",
   [0x2400, 0x2520, 0x2530, 0x2570, 0x2571, 0x2572, 0x2580, 0x3584, 0x3585, 0x2586]⟩,
  -- 430; 40739-40798
  ⟨cs! "0060_000c_0001", "Everspring", "SE812", "Siren", cs! "0060", cs! "000C", cs! "0001",
   [0x2400, 0x2420, 0x2525, 0x2471, 0x2572, 0x2580, 0x2585, 0x2586]⟩,
  -- 432; 40799-40853
  ⟨cs! "0060_000d_0001", "Everspring", "SF812", "Smoke Sensor", cs! "0060", cs! "000D", cs! "0001",
   [0x2400, 0x2420, 0x2471, 0x2472, 0x2480, 0x2485, 0x2486, 0x249c]⟩,
  -- 434; 40854-40949
  ⟨cs! "0060_0002_0001", "Everspring", "SM103", "Door/Window Contact", cs! "0060", cs! "0002", cs! "0001",
   [0x2400, 0x2520, 0x2530, 0x2570, 0x2571, 0x2572, 0x2580, 0x2584, 0x2585, 0x2586]⟩,
  -- 436; 40950-41061
  ⟨cs! "0060_0101_0001", "Everspring", "SP103", "Motion Detector", cs! "0060", cs! "0101", cs! "0001",
   [0x2400, 0x2420, 0x2530, 0x2570, 0x2571, 0x2572, 0x2580, 0x2584, 0x2585, 0x2586]⟩,
  -- 438; 41062-41201
  ⟨cs! "0060_0001_0002", "Everspring", "SP814", "Motion Detector", cs! "0060", cs! "0001", cs! "0002",
   [0x2400, 0x2520, 0x2530, 0x2570, 0x2572, 0x2580, 0x3584, 0x2585, 0x2586]⟩,
  -- 440; 41202-41277
  ⟨cs! "0060_000b_0001", "Everspring", "ST812", "Flood Sensor", cs! "0060", cs! "000B", cs! "0001",
   [0x2400, 0x2420, 0x2470, 0x2471, 0x2472, 0x2480, 0x3484, 0x2485, 0x2486, 0x249c]⟩,
  -- 442; 41278-41443
  ⟨cs! "0060_0006_0001", "Everspring", "ST814", "Temperature and Humidity Sensor", cs! "0060", cs! "0006", cs! "0001",
   [0x2400, 0x2420, 0x3431, 0x3460, 0x2470, 0x2471, 0x2472, 0x2480, 0x3484, 0x2485, 0x2486]⟩,
  -- 444; 41444-41524
  ⟨cs! "0060_0007_0001", "Everspring", "ST815", "Illumination Sensor", cs! "0060", cs! "0007", cs! "0001",
   []⟩,
  -- 446; 41525-41597
  ⟨cs! "0113_4450_3030", "Evolve", "LDM-15W", "Lamp Module", cs! "0113", cs! "4450", cs! "3030",
   [0x2400, 0x2420, 0x2526, 0x2527, 0x252b, 0x252c, 0x2570, 0x2572, 0x2573, 0x2586]⟩,
  -- 448; 41598-41669
  ⟨cs! "0113_5246_3133", "Evolve", "LFM-20", "", cs! "0113", cs! "5246", cs! "3133",
   [0x2400, 0x2420, 0x2425, 0x2427, 0x242b, 0x2470, 0x2472, 0x2486]⟩,
  -- 450; 41670-41748
  ⟨cs! "0113_5250_3030", "Evolve", "LPM-15", "Appliance module", cs! "0113", cs! "5250", cs! "3030",
   [0x2400, 0x2420, 0x2525, 0x2527, 0x252b, 0x252c, 0x2570, 0x2572, 0x2573, 0x2575, 0x2586]⟩,
  -- 452; 41749-41884
  ⟨cs! "0113_4457_3034", "Evolve", "LRM-AS", "Wall Mounted Dimmer", cs! "0113", cs! "4457", cs! "3034",
   [0x2400, 0x2420, 0x1422, 0x1425, 0x2426, 0x2427, 0x242b, 0x1430, 0x1432, 0x2470, 0x1471, 0x2472, 0x1480, 0x2486]⟩,
  -- 454; 41885-41983
  ⟨cs! "0113_5257_3533", "Evolve", "LSM-15", "Wall Mounted Switch", cs! "0113", cs! "5257", cs! "3533",
   [0x2400, 0x2420, 0x2425, 0x1426, 0x2427, 0x242b, 0x1460, 0x2470, 0x2472, 0x2486]⟩,
  -- 456; 41984-42093
  ⟨cs! "0113_4556_5434", "Evolve", "T100", "Thermostat", cs! "0113", cs! "4556", cs! "5434",
   [0x2400, 0x2520, 0x252b, 0x252c, 0x2531, 0x2540, 0x2542, 0x2543, 0x2544, 0x2545, 0x2570, 0x2572, 0x2573, 0x2581, 0x2585, 0x2586]⟩,
  -- 458; 42094-42154
  ⟨cs! "0085_0002_0002", "Fakro", "ARZ", "Roller Shutter Module", cs! "0085", cs! "0002", cs! "0002",
   [0x2400, 0x2420, 0x2525, 0x4526, 0x2527, 0x2572, 0x2573, 0x2586]⟩,
  -- 460; 42155-42233
  ⟨cs! "0085_0002_0001", "Fakro", "ZWS12", "Chain Actuator", cs! "0085", cs! "0002", cs! "0001",
   [0x2400, 0x2420, 0x2525, 0x4526, 0x2527, 0x2570, 0x2572, 0x2573, 0x2575, 0x2585, 0x2586]⟩,
  -- 462; 42234-42312
  ⟨cs! "0085_0003_0001", "Fakro", "ZWS12", "Chain Actuator", cs! "0085", cs! "0003", cs! "0001",
   [0x2400, 0x2420, 0x2525, 0x4526, 0x2527, 0x2570, 0x2572, 0x2573, 0x2575, 0x2585, 0x2586]⟩,
  -- 464; 42313-42643
  ⟨cs! "010f_0501_0102", "Fibargroup", "FGBS001", "Universal Binary Sensor", cs! "010F", cs! "0501", cs! "0102",
   [0x2420, 0x142b, 0x2430, 0x3460, 0x2470, 0x2485, 0x2486]⟩,
  -- 466; 42644-42974
  ⟨cs! "010f_0501_1002", "Fibargroup", "FGBS001", "Universal Binary Sensor", cs! "010F", cs! "0501", cs! "1002",
   [0x2420, 0x142b, 0x2430, 0x3460, 0x2470, 0x2485, 0x2486]⟩,
  -- 468; 42975-43305
  ⟨cs! "010f_0501_2002", "Fibargroup", "FGBS001", "Universal Binary Sensor", cs! "010F", cs! "0501", cs! "2002",
   [0x2420, 0x142b, 0x2430, 0x3460, 0x2470, 0x2485, 0x2486]⟩,
  -- 470; 43306-43636
  ⟨cs! "010f_0501_3002", "Fibargroup", "FGBS001", "Universal Binary Sensor", cs! "010F", cs! "0501", cs! "3002",
   [0x2420, 0x142b, 0x2430, 0x3460, 0x2470, 0x2485, 0x2486]⟩,
  -- 472; 43637-44167
  ⟨cs! "010f_0d01_1000", "Fibargroup", "FGGC001", "Fibaro Swipe Scene Controller", cs! "010F", cs! "0D01", cs! "1000",
   [0x2400, 0x2420, 0x2556, 0x1559, 0x255a, 0x355b, 0x255e, 0x2570, 0x2572, 0x2573, 0x157a, 0x2580, 0x3584, 0x2585, 0x2586, 0x158e, 0x1598]⟩,
  -- 474; 44168-44698
  ⟨cs! "010f_0d01_3000", "Fibargroup", "FGGC001", "Fibaro Swipe Scene Controller", cs! "010F", cs! "0D01", cs! "3000",
   [0x2400, 0x2420, 0x2556, 0x1559, 0x255a, 0x355b, 0x255e, 0x2570, 0x2572, 0x2573, 0x157a, 0x2580, 0x3584, 0x2585, 0x2586, 0x158e, 0x1598]⟩,
  -- 476; 44699-45054
  ⟨cs! "010f_0100_0104", "Fibargroup", "FGD211", "Universal Dimmer 500W", cs! "010F", cs! "0100", cs! "0104",
   [0x2400, 0x2420, 0x2526, 0x1527, 0x2570, 0x2572, 0x1573, 0x2585, 0x2586, 0x158e]⟩,
  -- 478; 45055-45410
  ⟨cs! "010f_0100_0106", "Fibargroup", "FGD211", "Universal Dimmer 500W", cs! "010F", cs! "0100", cs! "0106",
   [0x2400, 0x2420, 0x2526, 0x1527, 0x2570, 0x2572, 0x1573, 0x2585, 0x2586, 0x158e]⟩,
  -- 480; 45411-45766
  ⟨cs! "010f_0100_0107", "Fibargroup", "FGD211", "Universal Dimmer 500W", cs! "010F", cs! "0100", cs! "0107",
   [0x2400, 0x2420, 0x2526, 0x1527, 0x2570, 0x2572, 0x1573, 0x2585, 0x2586, 0x158e]⟩,
  -- 482; 45767-46122
  ⟨cs! "010f_0100_0109", "Fibargroup", "FGD211", "Universal Dimmer 500W", cs! "010F", cs! "0100", cs! "0109",
   [0x2400, 0x2420, 0x2526, 0x1527, 0x2570, 0x2572, 0x1573, 0x2585, 0x2586, 0x158e]⟩,
  -- 484; 46123-46478
  ⟨cs! "010f_0100_100a", "Fibargroup", "FGD211", "Universal Dimmer 500W", cs! "010F", cs! "0100", cs! "100A",
   [0x2400, 0x2420, 0x2526, 0x1527, 0x2570, 0x2572, 0x1573, 0x2585, 0x2586, 0x158e]⟩,
  -- 486; 46479-46834
  ⟨cs! "010f_0100_300a", "Fibargroup", "FGD211", "Universal Dimmer 500W", cs! "010F", cs! "0100", cs! "300A",
   [0x2400, 0x2420, 0x2526, 0x1527, 0x2570, 0x2572, 0x1573, 0x2585, 0x2586, 0x158e]⟩,
  -- 488; 46835-47826
  ⟨cs! "010f_0102_1000", "Fibargroup", "FGD212", "Dimmer 2", cs! "010F", cs! "0102", cs! "1000",
   [0x2400, 0x2420, 0x2422, 0x4426, 0x2427, 0x142b, 0x5431, 0x4432, 0x2456, 0x1159, 0x3460, 0x2470, 0x2471, 0x2472, 0x2485, 0x2486]⟩,
  -- 490; 47827-48818
  ⟨cs! "010f_0102_2000", "Fibargroup", "FGD212", "Dimmer 2", cs! "010F", cs! "0102", cs! "2000",
   [0x2400, 0x2420, 0x2422, 0x4426, 0x2427, 0x142b, 0x5431, 0x4432, 0x2456, 0x1159, 0x3460, 0x2470, 0x2471, 0x2472, 0x2485, 0x2486]⟩,
  -- 492; 48819-49810
  ⟨cs! "010f_0102_3000", "Fibargroup", "FGD212", "Dimmer 2", cs! "010F", cs! "0102", cs! "3000",
   [0x2400, 0x2420, 0x2422, 0x4426, 0x2427, 0x142b, 0x5431, 0x4432, 0x2456, 0x1159, 0x3460, 0x2470, 0x2471, 0x2472, 0x2485, 0x2486]⟩,
  -- 494; 49811-50802
  ⟨cs! "010f_0102_4000", "Fibargroup", "FGD212", "Dimmer 2", cs! "010F", cs! "0102", cs! "4000",
   [0x2400, 0x2420, 0x2422, 0x4426, 0x2427, 0x142b, 0x5431, 0x4432, 0x2456, 0x1159, 0x3460, 0x2470, 0x2471, 0x2472, 0x2485, 0x2486]⟩,
  -- 496; 50803-51142
  ⟨cs! "010f_0b00_1001", "Fibargroup", "FGFS101", "Flood Sensor", cs! "010F", cs! "0B00", cs! "1001",
   [0x2400, 0x2420, 0x2430, 0x3460, 0x2470, 0x2472, 0x2480, 0x2485, 0x2486, 0x249c]⟩,
  -- 498; 51143-51482
  ⟨cs! "010f_0b00_2001", "Fibargroup", "FGFS101", "Flood Sensor", cs! "010F", cs! "0B00", cs! "2001",
   [0x2400, 0x2420, 0x2430, 0x3460, 0x2470, 0x2472, 0x2480, 0x2485, 0x2486, 0x249c]⟩,
  -- 500; 51483-51822
  ⟨cs! "010f_0b00_3001", "Fibargroup", "FGFS101", "Flood Sensor", cs! "010F", cs! "0B00", cs! "3001",
   [0x2400, 0x2420, 0x2430, 0x3460, 0x2470, 0x2472, 0x2480, 0x2485, 0x2486, 0x249c]⟩,
  -- 502; 51823-52219
  ⟨cs! "010f_0b01_1002", "Fibargroup", "FGFS101", "Flood Sensor", cs! "010F", cs! "0B01", cs! "1002",
   [0x2400, 0x2520, 0x2522, 0x1430, 0x6531, 0x2556, 0x2559, 0x255a, 0x255e, 0x2570, 0x4571, 0x2572, 0x2573, 0x257a, 0x2580, 0x3584, 0x2585, 0x2586, 0x158e, 0x2598, 0x259c]⟩,
  -- 504; 52220-52616
  ⟨cs! "010f_0b01_2002", "Fibargroup", "FGFS101", "Flood Sensor", cs! "010F", cs! "0B01", cs! "2002",
   [0x2400, 0x2520, 0x2522, 0x1430, 0x6531, 0x2556, 0x2559, 0x255a, 0x255e, 0x2570, 0x4571, 0x2572, 0x2573, 0x257a, 0x2580, 0x3584, 0x2585, 0x2586, 0x158e, 0x2598, 0x259c]⟩,
  -- 506; 52617-52866
  ⟨cs! "010f_0700_1000", "Fibargroup", "FGK101", "Door Opening Sensor", cs! "010F", cs! "0700", cs! "1000",
   [0x2400, 0x2420, 0x2430, 0x2470, 0x2472, 0x2480, 0x2484, 0x2485, 0x2486, 0x249c]⟩,
  -- 508; 52867-53116
  ⟨cs! "010f_0700_2000", "Fibargroup", "FGK101", "Door Opening Sensor", cs! "010F", cs! "0700", cs! "2000",
   [0x2400, 0x2420, 0x2430, 0x2470, 0x2472, 0x2480, 0x2484, 0x2485, 0x2486, 0x249c]⟩,
  -- 510; 53117-53366
  ⟨cs! "010f_0700_3000", "Fibargroup", "FGK101", "Door Opening Sensor", cs! "010F", cs! "0700", cs! "3000",
   [0x2400, 0x2420, 0x2430, 0x2470, 0x2472, 0x2480, 0x2484, 0x2485, 0x2486, 0x249c]⟩,
  -- 512; 53367-53709
  ⟨cs! "010f_0701_1001", "Fibargroup", "FGK101", "Door Opening Sensor", cs! "010F", cs! "0701", cs! "1001",
   [0x2400, 0x2420, 0x2422, 0x242b, 0x2430, 0x6131, 0x2456, 0x2470, 0x2471, 0x2472, 0x2480, 0x3484, 0x2485, 0x2486, 0x249c]⟩]

end Verif.Model.Tables
