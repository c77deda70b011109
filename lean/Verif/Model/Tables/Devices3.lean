import Verif.Model.Tables.Row

/-
Generated by tools/gen_tables.py from /repo/database/devices.go: the cases of the switch in `New`
(lines 33-1446) with the device the called constructor returns.  Before each row: line of the case,
lines of the constructor.  `Parameters` is left out (nothing reads it).
-/

namespace Verif.Model.Tables

/-- database/devices.go 994-1113 -/
def devRows8 : List DevRow := [
  -- 994; 103414-103545
  ⟨cs! "0154_0004_0003", "Popp & Co", "004407", "CO Detector", cs! "0154", cs! "0004", cs! "0003",
   [0x2400, 0x2520, 0x3530, 0x8531, 0x2559, 0x255a, 0x255e, 0x2570, 0x6571, 0x2572, 0x2573, 0x257a, 0x2580, 0x3584, 0x3585, 0x3586]⟩,
  -- 996; 103546-103694
  ⟨cs! "0154_0000_0000", "Popp & Co", "005107", "Solar Powered Outdoor Siren", cs! "0154", cs! "0000", cs! "0000",
   [0x2400, 0x2420, 0x2425, 0x3430, 0x6431, 0x2470, 0x2471, 0x2472, 0x2480, 0x2485, 0x2486]⟩,
  -- 998; 103695-103843
  ⟨cs! "0154_0004_0002", "Popp & Co", "005107", "Solar Powered Outdoor Siren", cs! "0154", cs! "0004", cs! "0002",
   [0x2400, 0x2420, 0x2425, 0x3430, 0x6431, 0x2470, 0x2471, 0x2472, 0x2480, 0x2485, 0x2486]⟩,
  -- 1000; 103844-103991
  ⟨cs! "0154_0100_0400", "Popp & Co", "005206", "Z-Weather", cs! "0154", cs! "0100", cs! "0400",
   [0x2400, 0x2420, 0x1430, 0x7531, 0x4532, 0x2559, 0x255a, 0x255e, 0x2570, 0x2572, 0x2573, 0x2580, 0x3584, 0x3585, 0x3586, 0x2589, 0x358e, 0x258f, 0x159b]⟩,
  -- 1002; 103992-104430
  ⟨cs! "0154_0100_0103", "Popp & Co", "009204", "KFOB-C Remote-Control", cs! "0154", cs! "0100", cs! "0103",
   [0x2400, 0x2420, 0x252d, 0x2559, 0x255a, 0x255b, 0x255e, 0x2570, 0x2572, 0x2573, 0x2580, 0x3584, 0x2585, 0x3586, 0x258e, 0x258f]⟩,
  -- 1004; 104431-104878
  ⟨cs! "0154_0100_0101", "Popp & Co", "009303", "Wall Controller", cs! "0154", cs! "0100", cs! "0101",
   [0x2400, 0x2420, 0x1426, 0x142b, 0x152d, 0x1559, 0x255a, 0x245b, 0x255e, 0x2570, 0x2572, 0x2573, 0x2580, 0x3584, 0x2585, 0x2586, 0x158e, 0x258f]⟩,
  -- 1006; 104879-104987
  ⟨cs! "0154_0004_0004", "Popp & Co", "009402", "10 Year Smoke Detector with Siren Function", cs! "0154", cs! "0004", cs! "0004",
   [0x2400, 0x2420, 0x2425, 0x3430, 0x2470, 0x2471, 0x2472, 0x2480, 0x2485, 0x2486]⟩,
  -- 1008; 104988-105099
  ⟨cs! "0154_0005_0001", "Popp & Co", "012501", "Electric Strike Lock Control", cs! "0154", cs! "0005", cs! "0001",
   [0x2400, 0x2420, 0x3530, 0x2559, 0x255a, 0x255e, 0x1462, 0x1463, 0x2570, 0x6571, 0x2572, 0x2573, 0x2476, 0x257a, 0x2580, 0x3585, 0x3586]⟩,
  -- 1010; 105100-105316
  ⟨cs! "0154_0003_0001", "Popp & Co", "05438", "Indoor/Outdoor Wall Plug Switch", cs! "0154", cs! "0003", cs! "0001",
   [0x2400, 0x2420, 0x2425, 0x1427, 0x4432, 0x2470, 0x2472, 0x2485, 0x2486, 0x1487]⟩,
  -- 1012; 105317-105638
  ⟨cs! "0154_1100_0002", "Popp & Co", "123580", "Wall Plug Dimmer", cs! "0154", cs! "1100", cs! "0002",
   [0x2400, 0x2520, 0x3526, 0x1527, 0x2570, 0x2572, 0x1575, 0x1577, 0x2585, 0x2586, 0x1587]⟩,
  -- 1014; 105639-105800
  ⟨cs! "0154_1100_0001", "Popp & Co", "123610", "Wall Plug Switch", cs! "0154", cs! "1100", cs! "0001",
   [0x2400, 0x2520, 0x2525, 0x2527, 0x2570, 0x2572, 0x2575, 0x2577, 0x2585, 0x2586, 0x2587]⟩,
  -- 1016; 105801-105941
  ⟨cs! "0154_0001_0001", "Popp & Co", "123665", "Wall Plug Meter Switch", cs! "0154", cs! "0001", cs! "0001",
   [0x2400, 0x2520, 0x2525, 0x2527, 0x4532, 0x2570, 0x2572, 0x2585, 0x2586]⟩,
  -- 1018; 105942-106026
  ⟨cs! "0154_0004_0011", "Popp & Co", "POPE700168", "POPP Rain-Sensor", cs! "0154", cs! "0004", cs! "0011",
   [0x2400, 0x8431, 0x4432, 0x2459, 0x245a, 0x245e, 0x2470, 0x2472, 0x2473, 0x247a, 0x2480, 0x3484, 0x3485, 0x3486]⟩,
  -- 1020; 106027-106178
  ⟨cs! "0128_0000_0000", "Prodrive Technologies", "ED2.0", "Eneco Meter Adapter", cs! "0128", cs! "0000", cs! "0000",
   [0x2400, 0x2420, 0x2522, 0x153c, 0x253d, 0x153e, 0x2556, 0x3560, 0x2570, 0x2572, 0x2573, 0x157a, 0x2586, 0x258b]⟩,
  -- 1022; 106179-106262
  ⟨cs! "0095_3103_0001", "Qees", "P313A", "Plug-in Socket Dimmer", cs! "0095", cs! "3103", cs! "0001",
   [0x2400, 0x2420, 0x1425, 0x3526, 0x2527, 0x252b, 0x252c, 0x4532, 0x2572, 0x257a, 0x3585, 0x2586]⟩,
  -- 1024; 106263-106323
  ⟨cs! "0095_0002_0001", "Qees", "Qees Wall", "Wall mountable mini 4 button remote", cs! "0095", cs! "0002", cs! "0001",
   [0x2400, 0x2420, 0x2570, 0x2572, 0x2580, 0x2584, 0x2585, 0x2586]⟩,
  -- 1026; 106324-106516
  ⟨cs! "0159_0002_0002", "Goap", "ZMNHAA", "Flush 1 relay", cs! "0159", cs! "0002", cs! "0002",
   [0x2400, 0x2420, 0x2425, 0x4431, 0x4432, 0x3460, 0x2470, 0x2472, 0x2485, 0x2486]⟩,
  -- 1028; 106517-106921
  ⟨cs! "0159_0002_0052", "Goap", "ZMNHAD", "Flush 1 relay", cs! "0159", cs! "0002", cs! "0052",
   [0x2400, 0x2520, 0x2525, 0x2527, 0x2530, 0x4532, 0x2559, 0x255a, 0x255e, 0x3560, 0x2570, 0x4571, 0x2572, 0x2573, 0x2585, 0x2586, 0x158e]⟩,
  -- 1030; 106922-107135
  ⟨cs! "0159_0002_0001", "Goap", "ZMNHBA", "Flush 2 relays", cs! "0159", cs! "0002", cs! "0001",
   [0x2400, 0x2420, 0x2425, 0x2427, 0x6431, 0x4432, 0x3460, 0x2470, 0x2472, 0x2485, 0x2486]⟩,
  -- 1032; 107136-107438
  ⟨cs! "0159_0002_0051", "Goap", "ZMNHBD", "Flush 2 relays", cs! "0159", cs! "0002", cs! "0051",
   [0x2400, 0x2420, 0x2425, 0x1427, 0x6431, 0x4432, 0x3460, 0x2470, 0x2472, 0x2485, 0x2486]⟩,
  -- 1034; 107439-107764
  ⟨cs! "0159_0003_0002", "Goap", "ZMNHCD", "Flush Shutter", cs! "0159", cs! "0003", cs! "0002",
   [0x2400, 0x2520, 0x2525, 0x4526, 0x2527, 0x1531, 0x4532, 0x2559, 0x255a, 0x255e, 0x3560, 0x2570, 0x2572, 0x2573, 0x2585, 0x3586, 0x258e]⟩,
  -- 1036; 107765-108090
  ⟨cs! "0159_0003_0052", "Goap", "ZMNHCD", "Flush Shutter", cs! "0159", cs! "0003", cs! "0052",
   [0x2400, 0x2520, 0x2525, 0x4526, 0x2527, 0x1531, 0x4532, 0x2559, 0x255a, 0x255e, 0x3560, 0x2570, 0x2572, 0x2573, 0x2585, 0x3586, 0x258e]⟩,
  -- 1038; 108091-108343
  ⟨cs! "0159_0001_0001", "Goap", "ZMNHDA", "Flush dimmer", cs! "0159", cs! "0001", cs! "0001",
   [0x2400, 0x2520, 0x2525, 0x4526, 0x2527, 0x4531, 0x4532, 0x3560, 0x2570, 0x2572, 0x2573, 0x2585, 0x2586]⟩,
  -- 1040; 108344-108801
  ⟨cs! "0159_0001_0051", "Goap", "ZMNHDD", "Flush Dimmer Plus", cs! "0159", cs! "0001", cs! "0051",
   [0x2400, 0x2420, 0x2425, 0x4426, 0x2430, 0x6431, 0x4432, 0x3460, 0x2470, 0x2471, 0x2472, 0x2485, 0x2486]⟩,
  -- 1042; 108802-109125
  ⟨cs! "0159_0005_0001", "Goap", "ZMNHIA", "Flush on/off thermostat", cs! "0159", cs! "0005", cs! "0001",
   [0x2400, 0x2420, 0x4531, 0x4532, 0x2540, 0x2543, 0x3560, 0x2570, 0x1572, 0x2573, 0x2585, 0x2586]⟩,
  -- 1044; 109126-109417
  ⟨cs! "0159_0005_0051", "Goap", "ZMNHID", "Flush on/off thermostat", cs! "0159", cs! "0005", cs! "0051",
   [0x2400, 0x2420, 0x2427, 0x6431, 0x4432, 0x3440, 0x3443, 0x2470, 0x2472, 0x2485, 0x2486]⟩,
  -- 1046; 109418-109742
  ⟨cs! "0159_0004_0001", "Qubino", "ZMNHJA2", "Qubino Flush Pilot", cs! "0159", cs! "0004", cs! "0001",
   [0x2400, 0x2520, 0x2525, 0x4526, 0x2527, 0x4531, 0x3560, 0x2570, 0x2572, 0x2585, 0x2586]⟩,
  -- 1048; 109743-110057
  ⟨cs! "0159_0004_0051", "Goap", "ZMNHJD", "Flush Pilot", cs! "0159", cs! "0004", cs! "0051",
   [0x2400, 0x2420, 0x2425, 0x4426, 0x2427, 0x4431, 0x3460, 0x2470, 0x2472, 0x2485, 0x2486]⟩,
  -- 1050; 110058-110544
  ⟨cs! "0159_0005_0003", "Goap", "ZMNHLA", "Flush PWM thermostat", cs! "0159", cs! "0005", cs! "0003",
   [0x2400, 0x2420, 0x4431, 0x4432, 0x3440, 0x3443, 0x2470, 0x2472, 0x2485, 0x2486]⟩,
  -- 1052; 110545-111294
  ⟨cs! "0159_0005_0053", "Goap", "ZMNHLD", "Flush PWM Thermostat", cs! "0159", cs! "0005", cs! "0053",
   [0x1420, 0x1427, 0x1430, 0x8431, 0x5432, 0x3440, 0x3443, 0x3459, 0x145a, 0x345e, 0x3470, 0x3472, 0x1473, 0x3485, 0x3486, 0x14ef]⟩,
  -- 1054; 111295-111592
  ⟨cs! "0159_0002_0053", "Goap", "ZMNHND", "Flush 1D relay", cs! "0159", cs! "0002", cs! "0053",
   [0x2400, 0x2420, 0x2425, 0x2427, 0x1430, 0x8431, 0x2459, 0x245a, 0x245e, 0x3460, 0x2470, 0x2472, 0x2473, 0x3485, 0x3486, 0x448e]⟩,
  -- 1056; 111593-111901
  ⟨cs! "0159_0003_0053", "Goap", "ZMNHOD", "Flush Shutter DC", cs! "0159", cs! "0003", cs! "0053",
   [0x2400, 0x2520, 0x2525, 0x4526, 0x2527, 0x1430, 0x8531, 0x4532, 0x2559, 0x255a, 0x255e, 0x3560, 0x2570, 0x2572, 0x2573, 0x2585, 0x2586, 0x158e]⟩,
  -- 1058; 111902-112201
  ⟨cs! "0159_0001_0052", "Goap", "ZMNHSD", "DIN Rail Dimmer", cs! "0159", cs! "0001", cs! "0052",
   [0x2400, 0x2420, 0x2425, 0x4426, 0x2427, 0x4432, 0x2470, 0x2472, 0x2485, 0x2486]⟩,
  -- 1060; 112202-112589
  ⟨cs! "0159_0001_0053", "Goap", "ZMNHVD", "Flush Dimmer 0-10V ", cs! "0159", cs! "0001", cs! "0053",
   [0x2400, 0x2520, 0x2525, 0x4526, 0x2527, 0x2559, 0x255a, 0x255e, 0x2570, 0x2572, 0x2573, 0x2585, 0x2586, 0x158e]⟩,
  -- 1062; 112590-112769
  ⟨cs! "0159_0001_0054", "Goap", "ZMNHWD", "Qubino Flush RGBW Dimmer", cs! "0159", cs! "0001", cs! "0054",
   [0x2400, 0x2520, 0x2525, 0x3526, 0x3533, 0x2559, 0x255a, 0x255e, 0x2570, 0x2572, 0x2573, 0x257a, 0x3585, 0x3586]⟩,
  -- 1064; 112770-113005
  ⟨cs! "0159_0007_0053", "Goap", "ZMNHZD", "Multifunctional Weather Station", cs! "0159", cs! "0007", cs! "0053",
   [0x2400, 0x2420, 0x6431, 0x3460, 0x2470, 0x2472, 0x2480, 0x2485, 0x2486]⟩,
  -- 1066; 113006-113095
  ⟨cs! "0010_5442_5432", "Residential Control Systems, Inc. (RCS)", "TBZ48", "Thermostat", cs! "0010", cs! "5442", cs! "5432",
   [0x2400, 0x2420, 0x242b, 0x2431, 0x2440, 0x2442, 0x3443, 0x2444, 0x2445, 0x2470, 0x2472, 0x2480, 0x2485, 0x2486, 0x248f]⟩,
  -- 1068; 113096-113192
  ⟨cs! "0010_0001_0002", "Residential Control Systems, Inc. (RCS)", "TZ43", "Thermostat", cs! "0010", cs! "0001", cs! "0002",
   [0x2400, 0x2420, 0x2531, 0x2540, 0x2542, 0x2543, 0x2544, 0x2545, 0x2570, 0x2572, 0x2576, 0x2581, 0x2585, 0x2586]⟩,
  -- 1070; 113193-113532
  ⟨cs! "0064_2001_0000", "Reitz-Group.de", "Reitz 05431", "Duewi ZW BJ ES 1000 / Reitz 05431 / ZWave.me 05457 Single button wall switch", cs! "0064", cs! "2001", cs! "0000",
   [0x2400, 0x2420, 0x2525, 0x2527, 0x2572, 0x2575, 0x2582, 0x2585, 0x2586, 0x2587]⟩,
  -- 1072; 113533-113605
  ⟨cs! "0064_0001_0000", "Reitz-Group.de", "05433", "One Paddle Wall Dimmer Insert", cs! "0064", cs! "0001", cs! "0000",
   [0x2400, 0x2420, 0x3526, 0x2527, 0x2572, 0x2575, 0x2582, 0x2585, 0x2586, 0x2587]⟩,
  -- 1074; 113606-113672
  ⟨cs! "0064_3001_0000", "Reitz-Group.de", "054375", "Schuko Plug Switch", cs! "0064", cs! "3001", cs! "0000",
   [0x2400, 0x2420, 0x2525, 0x2527, 0x2572, 0x2575, 0x2582, 0x2586, 0x2587]⟩,
  -- 1076; 113673-113739
  ⟨cs! "0064_3002_0000", "Reitz-Group.de", "054375", "Schuko Plug Switch", cs! "0064", cs! "3002", cs! "0000",
   [0x2400, 0x2420, 0x2525, 0x2527, 0x2572, 0x2575, 0x2582, 0x2586, 0x2587]⟩,
  -- 1078; 113740-113782
  ⟨cs! "0064_5002_0000", "Reitz-Group.de", "Duwi ZW WS - 05443", "Battery powered One paddle wall controller", cs! "0064", cs! "5002", cs! "0000",
   [0x2400, 0x2420, 0x2572, 0x2580, 0x2585]⟩,
  -- 1080; 113783-114215
  ⟨cs! "0064_4001_0000", "Reitz-Group.de", "06436", "Insert blind control", cs! "0064", cs! "4001", cs! "0000",
   [0x2400, 0x2420, 0x2525, 0x2526, 0x2527, 0x2570, 0x2572, 0x2575, 0x2582, 0x2585, 0x2586, 0x2587]⟩,
  -- 1082; 114216-114282
  ⟨cs! "0064_1001_0000", "Reitz-Group.de", "064394", "Schuko Plug Dimmer", cs! "0064", cs! "1001", cs! "0000",
   [0x2400, 0x2420, 0x3526, 0x2527, 0x2572, 0x2575, 0x2582, 0x2586, 0x2587]⟩,
  -- 1084; 114283-114337
  ⟨cs! "0064_5003_0000", "Reitz-Group.de", "DUW_RPT", "Düwi Repeater", cs! "0064", cs! "5003", cs! "0000",
   [0x2400, 0x2420, 0x2571, 0x2572, 0x2580, 0x2586, 0x2587]⟩,
  -- 1086; 114338-114404
  ⟨cs! "0064_0166_2007", "Reitz-Group.de", "swiidplug", "SwiidPlug", cs! "0064", cs! "0166", cs! "2007",
   [0x2400, 0x2420, 0x2525, 0x2527, 0x2572, 0x2575, 0x2582, 0x2586, 0x2587]⟩,
  -- 1088; 114405-114836
  ⟨cs! "0064_1000_0009", "Reitz-Group.de", "ZME_05431", "Switch", cs! "0064", cs! "1000", cs! "0009",
   [0x2400, 0x2520, 0x2525, 0x1426, 0x2527, 0x252b, 0x252c, 0x252d, 0x4532, 0x2559, 0x255a, 0x255e, 0x2570, 0x2572, 0x2573, 0x2575, 0x2577, 0x3585, 0x3586, 0x2587, 0x358e]⟩,
  -- 1090; 114837-114956
  ⟨cs! "5254_8000_0002", "Remotec", "ZFM-80", "Fixture Switch Module", cs! "5254", cs! "8000", cs! "0002",
   [0x2400, 0x2420, 0x2425, 0x2427, 0x2470, 0x2472, 0x2485, 0x2486]⟩,
  -- 1092; 114957-115029
  ⟨cs! "5254_0001_8380", "Remotec", "ZRC-100", "Remote Control", cs! "5254", cs! "0001", cs! "8380",
   [0x2400, 0x2420, 0x2521, 0x252d, 0x2572, 0x2584, 0x2585, 0x2586, 0x258e, 0x2598]⟩,
  -- 1094; 115030-115102
  ⟨cs! "5254_0002_8380", "Remotec", "ZRC-100", "Remote Control", cs! "5254", cs! "0002", cs! "8380",
   [0x2400, 0x2420, 0x2521, 0x252d, 0x2572, 0x2584, 0x2585, 0x2586, 0x258e, 0x2598]⟩,
  -- 1096; 115103-115193
  ⟨cs! "5254_0000_8510", "Remotec", "ZRC-90", "Scene master 8 button remote", cs! "5254", cs! "0000", cs! "8510",
   [0x2400, 0x2420, 0x2521, 0x2559, 0x255a, 0x255b, 0x255e, 0x2572, 0x2573, 0x2580, 0x3584, 0x2585, 0x2586]⟩,
  -- 1098; 115194-115284
  ⟨cs! "5254_0001_8510", "Remotec", "ZRC-90", "Scene master 8 button remote", cs! "5254", cs! "0001", cs! "8510",
   [0x2400, 0x2420, 0x2521, 0x2559, 0x255a, 0x255b, 0x255e, 0x2572, 0x2573, 0x2580, 0x3584, 0x2585, 0x2586]⟩,
  -- 1100; 115285-115375
  ⟨cs! "5254_0002_8510", "Remotec", "ZRC-90", "Scene master 8 button remote", cs! "5254", cs! "0002", cs! "8510",
   [0x2400, 0x2420, 0x2521, 0x2559, 0x255a, 0x255b, 0x255e, 0x2572, 0x2573, 0x2580, 0x3584, 0x2585, 0x2586]⟩,
  -- 1102; 115376-115616
  ⟨cs! "5254_0200_8031", "Remotec", "ZTS-110", "Remotec ZTS-110 Z Wave Thermostat", cs! "5254", cs! "0200", cs! "8031",
   [0x2400, 0x2420, 0x2431, 0x2440, 0x2442, 0x2443, 0x2444, 0x2445, 0x2470, 0x2472, 0x2480, 0x2485, 0x2486]⟩,
  -- 1104; 115617-115857
  ⟨cs! "5254_0202_8031", "Remotec", "ZTS-110", "Remotec ZTS-110 Z Wave Thermostat", cs! "5254", cs! "0202", cs! "8031",
   [0x2400, 0x2420, 0x2431, 0x2440, 0x2442, 0x2443, 0x2444, 0x2445, 0x2470, 0x2472, 0x2480, 0x2485, 0x2486]⟩,
  -- 1106; 115858-115978
  ⟨cs! "5254_0102_8377", "Remotec", "ZXT-120AU", "Remotec ZXT-120 AC IR Remote", cs! "5254", cs! "0102", cs! "8377",
   []⟩,
  -- 1108; 115979-116164
  ⟨cs! "5254_0101_8377", "Remotec", "ZXT-120", "AC IR Remote", cs! "5254", cs! "0101", cs! "8377",
   [0x2400, 0x2520, 0x2527, 0x2531, 0x3540, 0x3543, 0x3544, 0x2570, 0x2572, 0x2580, 0x2586]⟩,
  -- 1110; 116165-116350
  ⟨cs! "5254_0100_8377", "Remotec", "ZXT-120", "AC IR Remote", cs! "5254", cs! "0100", cs! "8377",
   [0x2400, 0x2520, 0x2527, 0x2531, 0x3540, 0x3543, 0x3544, 0x2570, 0x2572, 0x2580, 0x2586]⟩,
  -- 1112; 116351-116375
  ⟨cs! "0147_0400_0001", "R-import Ltd.", "RaZberry Controller 2016 ZWave+", "Z-Wave.Me Razberry daughtercard", cs! "0147", cs! "0400", cs! "0001",
   [0x2400, 0x1420]⟩]

/-- database/devices.go 1114-1233 -/
def devRows9 : List DevRow := [
  -- 1114; 116376-116400
  ⟨cs! "0147_0400_0002", "R-import Ltd.", "RaZberry Controller 2016 ZWave+", "Z-Wave.Me Razberry daughtercard", cs! "0147", cs! "0400", cs! "0002",
   [0x2400, 0x1420]⟩,
  -- 1116; 116401-116496
  ⟨cs! "0098_6401_0015", "Radio Thermostat Company of America (RTC)", "CT100", "Z-Wave Thermostat", cs! "0098", cs! "6401", cs! "0015",
   [0x2400, 0x2420, 0x3431, 0x3440, 0x3442, 0x3443, 0x2444, 0x2445, 0x3460, 0x2470, 0x2472, 0x2480, 0x2581, 0x2485, 0x2486, 0x2487]⟩,
  -- 1118; 116497-116592
  ⟨cs! "0098_6401_0105", "Radio Thermostat Company of America (RTC)", "CT100", "Z-Wave Thermostat", cs! "0098", cs! "6401", cs! "0105",
   [0x2400, 0x2420, 0x3431, 0x3440, 0x3442, 0x3443, 0x2444, 0x2445, 0x3460, 0x2470, 0x2472, 0x2480, 0x2581, 0x2485, 0x2486, 0x2487]⟩,
  -- 1120; 116593-116688
  ⟨cs! "0098_6401_0106", "Radio Thermostat Company of America (RTC)", "CT100", "Z-Wave Thermostat", cs! "0098", cs! "6401", cs! "0106",
   [0x2400, 0x2420, 0x3431, 0x3440, 0x3442, 0x3443, 0x2444, 0x2445, 0x3460, 0x2470, 0x2472, 0x2480, 0x2581, 0x2485, 0x2486, 0x2487]⟩,
  -- 1122; 116689-116784
  ⟨cs! "0098_6401_0107", "Radio Thermostat Company of America (RTC)", "CT100", "Z-Wave Thermostat", cs! "0098", cs! "6401", cs! "0107",
   [0x2400, 0x2420, 0x3431, 0x3440, 0x3442, 0x3443, 0x2444, 0x2445, 0x3460, 0x2470, 0x2472, 0x2480, 0x2581, 0x2485, 0x2486, 0x2487]⟩,
  -- 1124; 116785-116880
  ⟨cs! "0098_6401_01fd", "Radio Thermostat Company of America (RTC)", "CT100", "Z-Wave Thermostat", cs! "0098", cs! "6401", cs! "01FD",
   [0x2400, 0x2420, 0x3431, 0x3440, 0x3442, 0x3443, 0x2444, 0x2445, 0x3460, 0x2470, 0x2472, 0x2480, 0x2581, 0x2485, 0x2486, 0x2487]⟩,
  -- 1126; 116881-116976
  ⟨cs! "0098_6501_000b", "Radio Thermostat Company of America (RTC)", "CT100", "Z-Wave Thermostat", cs! "0098", cs! "6501", cs! "000B",
   [0x2400, 0x2420, 0x3431, 0x3440, 0x3442, 0x3443, 0x2444, 0x2445, 0x3460, 0x2470, 0x2472, 0x2480, 0x2581, 0x2485, 0x2486, 0x2487]⟩,
  -- 1128; 116977-116991
  ⟨cs! "0098_6501_000c", "Radio Thermostat Company of America", "CT101", "Z-Wave Thermostat", cs! "0098", cs! "6501", cs! "000C",
   []⟩,
  -- 1130; 116992-117086
  ⟨cs! "0098_6e02_0101", "Radio Thermostat Company of America (RTC)", "CT110 Thermostat", "CT-110 Thermostat. RadioThermostat company.", cs! "0098", cs! "6E02", cs! "0101",
   [0x2400, 0x2420, 0x6431, 0x3440, 0x3442, 0x3443, 0x2444, 0x2445, 0x3460, 0x2470, 0x2472, 0x2480, 0x2481, 0x2485, 0x2486, 0x2487]⟩,
  -- 1132; 117087-117303
  ⟨cs! "0098_0001_001e", "Radio Thermostat Company of America (RTC)", "CT30", "Z-Wave Thermostat", cs! "0098", cs! "0001", cs! "001E",
   [0x2400, 0x2420, 0x3431, 0x3440, 0x2442, 0x3443, 0x2444, 0x2470, 0x2472, 0x2480, 0x2481, 0x2486, 0x2487]⟩,
  -- 1134; 117304-117520
  ⟨cs! "0098_1e10_0158", "Radio Thermostat Company of America (RTC)", "CT30", "Z-Wave Thermostat", cs! "0098", cs! "1E10", cs! "0158",
   [0x2400, 0x2420, 0x3431, 0x3440, 0x2442, 0x3443, 0x2444, 0x2470, 0x2472, 0x2480, 0x2481, 0x2486, 0x2487]⟩,
  -- 1136; 117521-117737
  ⟨cs! "0098_1e12_015e", "Radio Thermostat Company of America (RTC)", "CT30", "Z-Wave Thermostat", cs! "0098", cs! "1E12", cs! "015E",
   [0x2400, 0x2420, 0x3431, 0x3440, 0x2442, 0x3443, 0x2444, 0x2470, 0x2472, 0x2480, 0x2481, 0x2486, 0x2487]⟩,
  -- 1138; 117738-117954
  ⟨cs! "0098_3200_015e", "Radio Thermostat Company of America (RTC)", "CT30", "Z-Wave Thermostat", cs! "0098", cs! "3200", cs! "015E",
   [0x2400, 0x2420, 0x3431, 0x3440, 0x2442, 0x3443, 0x2444, 0x2470, 0x2472, 0x2480, 0x2481, 0x2486, 0x2487]⟩,
  -- 1140; 117955-118171
  ⟨cs! "0098_1e12_015c", "Radio Thermostat Company of America (RTC)", "CT30", "Z-Wave Thermostat", cs! "0098", cs! "1E12", cs! "015C",
   [0x2400, 0x2420, 0x3431, 0x3440, 0x2442, 0x3443, 0x2444, 0x2470, 0x2472, 0x2480, 0x2481, 0x2486, 0x2487]⟩,
  -- 1142; 118172-118388
  ⟨cs! "0098_0000_0000", "Radio Thermostat Company of America (RTC)", "CT30", "Z-Wave Thermostat", cs! "0098", cs! "0000", cs! "0000",
   [0x2400, 0x2420, 0x3431, 0x3440, 0x2442, 0x3443, 0x2444, 0x2470, 0x2472, 0x2480, 0x2481, 0x2486, 0x2487]⟩,
  -- 1144; 118389-118724
  ⟨cs! "0098_2002_0100", "Radio Thermostat Company of America (RTC)", "CT32", "Z-Wave Thermostat", cs! "0098", cs! "2002", cs! "0100",
   [0x2400, 0x2520, 0x6531, 0x2540, 0x2542, 0x2543, 0x2544, 0x2545, 0x2559, 0x255a, 0x255e, 0x3560, 0x2570, 0x2572, 0x2573, 0x2580, 0x2581, 0x2585, 0x2586, 0x2587]⟩,
  -- 1146; 118725-119060
  ⟨cs! "0098_2002_0102", "Radio Thermostat Company of America (RTC)", "CT32", "Z-Wave Thermostat", cs! "0098", cs! "2002", cs! "0102",
   [0x2400, 0x2520, 0x6531, 0x2540, 0x2542, 0x2543, 0x2544, 0x2545, 0x2559, 0x255a, 0x255e, 0x3560, 0x2570, 0x2572, 0x2573, 0x2580, 0x2581, 0x2585, 0x2586, 0x2587]⟩,
  -- 1148; 119061-119396
  ⟨cs! "0098_0002_0100", "Radio Thermostat Company of America (RTC)", "CT32", "Z-Wave Thermostat", cs! "0098", cs! "0002", cs! "0100",
   [0x2400, 0x2520, 0x6531, 0x2540, 0x2542, 0x2543, 0x2544, 0x2545, 0x2559, 0x255a, 0x255e, 0x3560, 0x2570, 0x2572, 0x2573, 0x2580, 0x2581, 0x2585, 0x2586, 0x2587]⟩,
  -- 1150; 119397-119474
  ⟨cs! "003b_634b_5044", "Allegion", "BE369", "Keypad Deadbolt", cs! "003B", cs! "634B", cs! "5044",
   [0x2600, 0x2620, 0x2662, 0x2663, 0x2670, 0x2671, 0x2473, 0x2680, 0x2485, 0x2686, 0x2498]⟩,
  -- 1152; 119475-119633
  ⟨cs! "003b_6349_5044", "Allegion", "BE468", "Touchscreen Deadbolt", cs! "003B", cs! "6349", cs! "5044",
   [0x2400, 0x2420, 0x2422, 0x2462, 0x2463, 0x2470, 0x4471, 0x2472, 0x247a, 0x2480, 0x2485, 0x2486, 0x2498]⟩,
  -- 1154; 119634-120028
  ⟨cs! "003b_6341_5044", "Allegion", "BE469", "Touchscreen Deadbolt", cs! "003B", cs! "6341", cs! "5044",
   [0x2400, 0x2220, 0x2522, 0x2262, 0x2263, 0x2270, 0x4271, 0x2572, 0x157a, 0x2280, 0x2285, 0x2586, 0x1598]⟩,
  -- 1156; 120029-120114
  ⟨cs! "003b_634b_504c", "Allegion", "FE599NX", "Connected Keypad with Lever", cs! "003B", cs! "634B", cs! "504C",
   [0x2600, 0x2620, 0x1262, 0x2263, 0x2270, 0x2271, 0x2572, 0x2573, 0x2476, 0x2280, 0x2585, 0x2286, 0x2598]⟩,
  -- 1158; 120115-120217
  ⟨cs! "0301_0048_010f", "Seco", "Zwave Clamp", "Clamp Energy Meter", cs! "0301", cs! "0048", cs! "010F",
   [0x2400, 0x2420, 0x4532, 0x253d, 0x1556, 0x2559, 0x255a, 0x255e, 0x2570, 0x2572, 0x2573, 0x3585, 0x3586, 0x158a, 0x258b]⟩,
  -- 1160; 120218-120321
  ⟨cs! "019a_0003_0003", "Sensative AB", "11-01-011", "Strips-MaZw", cs! "019A", cs! "0003", cs! "0003",
   [0x2400, 0x2420, 0x2430, 0x2470, 0x4471, 0x2472, 0x2480, 0x3484, 0x2485, 0x2486]⟩,
  -- 1162; 120322-120418
  ⟨cs! "0258_0003_3082", "Shenzhen Neo Electronics Co., Ltd", "Door Sensor IN", "Door Sensor", cs! "0258", cs! "0003", cs! "3082",
   [0x2400, 0x2420, 0x3530, 0x2559, 0x255a, 0x255e, 0x2570, 0x9571, 0x2572, 0x2573, 0x2580, 0x3584, 0x3585, 0x3586]⟩,
  -- 1164; 120419-120537
  ⟨cs! "0258_0003_1082", "Shenzhen Neo Electronics Co., Ltd", "Door/Window Sensor", "Door/Window Sensor", cs! "0258", cs! "0003", cs! "1082",
   [0x2400, 0x2420, 0x3530, 0x2559, 0x255a, 0x255e, 0x2570, 0x4571, 0x2572, 0x2573, 0x2580, 0x3584, 0x2585, 0x2586]⟩,
  -- 1166; 120538-120659
  ⟨cs! "0258_0003_1085", "Shenzhen Neo Electronics Co., Ltd", "Flood sensor", "Flood/water sensor", cs! "0258", cs! "0003", cs! "1085",
   [0x2400, 0x2420, 0x3430, 0x2459, 0x245a, 0x345e, 0x2070, 0x2471, 0x3472, 0x2473, 0x2480, 0x3484, 0x3485, 0x2486]⟩,
  -- 1168; 120660-120890
  ⟨cs! "0258_0003_1083", "Shenzhen Neo Electronics Co., Ltd", "Motion Sensor", "PIR Motion Sensor", cs! "0258", cs! "0003", cs! "1083",
   [0x2400, 0x2420, 0x3530, 0x8531, 0x2559, 0x255a, 0x255e, 0x2570, 0x4571, 0x2572, 0x2573, 0x2580, 0x3584, 0x2585, 0x2586]⟩,
  -- 1170; 120891-120993
  ⟨cs! "0258_0003_3083", "Shenzhen Neo Electronics Co., Ltd", "Motion Sensor IN", "Motion Sensor IN", cs! "0258", cs! "0003", cs! "3083",
   [0x2400, 0x2420, 0x3530, 0x8531, 0x2559, 0x255a, 0x255e, 0x2570, 0x9571, 0x2572, 0x2573, 0x2580, 0x3584, 0x3585, 0x3586]⟩,
  -- 1172; 120994-121118
  ⟨cs! "0258_0003_0082", "Shenzhen Neo Electronics Co., Ltd", "NAS-DS01Z", "Cyrus Door Window Sensor", cs! "0258", cs! "0003", cs! "0082",
   [0x2400, 0x2420, 0x3530, 0x2559, 0x255a, 0x255e, 0x2570, 0x4571, 0x2572, 0x2573, 0x2580, 0x3584, 0x2585, 0x3586]⟩,
  -- 1174; 121119-121356
  ⟨cs! "0258_0003_1087", "Shenzhen Neo Electronics Co., Ltd", "Power Plug", "Metered Wall Plug Switch", cs! "0258", cs! "0003", cs! "1087",
   [0x2400, 0x2520, 0x2525, 0x2527, 0x4532, 0x2559, 0x255a, 0x255e, 0x2570, 0x4571, 0x2572, 0x2573, 0x2585, 0x2586]⟩,
  -- 1176; 121357-121493
  ⟨cs! "0258_0003_1088", "Shenzhen Neo Electronics Co., Ltd", "Siren Alarm", "Siren Alarm", cs! "0258", cs! "0003", cs! "1088",
   [0x2400, 0x2420, 0x2425, 0x2470, 0x2471, 0x2472, 0x2480, 0x2485, 0x2486]⟩,
  -- 1178; 121494-121588
  ⟨cs! "0000_0003_0003", "Sigma Designs (Former Zensys)", "K8", "Z-Wave Battery Wall Controller", cs! "0000", cs! "0003", cs! "0003",
   [0x2400, 0x2420, 0x2526, 0x1030, 0x2559, 0x255a, 0x255e, 0x2572, 0x2573, 0x257a, 0x2580, 0x3584, 0x2585, 0x3586]⟩,
  -- 1180; 121589-121623
  ⟨cs! "0047_5a52_5400", "Somfy", "ZRTSI", "Z-Wave to RTS Interface Controller", cs! "0047", cs! "5A52", cs! "5400",
   [0x2400, 0x2420, 0x2472, 0x2486]⟩,
  -- 1182; 121624-121673
  ⟨cs! "0047_5a52_5401", "Somfy", "ZRTSI-VNODE", "Z-Wave to RTS Interface Virtual Node", cs! "0047", cs! "5A52", cs! "5401",
   [0x2400, 0x2420, 0x2425, 0x4426, 0x242b, 0x2472, 0x2486]⟩,
  -- 1184; 121674-121723
  ⟨cs! "0047_5a52_5402", "Somfy", "ZRTSI-VNODE", "Z-Wave to RTS Interface Virtual Node", cs! "0047", cs! "5A52", cs! "5402",
   [0x2400, 0x2420, 0x2425, 0x4426, 0x242b, 0x2472, 0x2486]⟩,
  -- 1186; 121724-121773
  ⟨cs! "0047_5a52_5403", "Somfy", "ZRTSI-VNODE", "Z-Wave to RTS Interface Virtual Node", cs! "0047", cs! "5A52", cs! "5403",
   [0x2400, 0x2420, 0x2425, 0x4426, 0x242b, 0x2472, 0x2486]⟩,
  -- 1188; 121774-121823
  ⟨cs! "0047_5a52_5404", "Somfy", "ZRTSI-VNODE", "Z-Wave to RTS Interface Virtual Node", cs! "0047", cs! "5A52", cs! "5404",
   [0x2400, 0x2420, 0x2425, 0x4426, 0x242b, 0x2472, 0x2486]⟩,
  -- 1190; 121824-121873
  ⟨cs! "0047_5a52_5405", "Somfy", "ZRTSI-VNODE", "Z-Wave to RTS Interface Virtual Node", cs! "0047", cs! "5A52", cs! "5405",
   [0x2400, 0x2420, 0x2425, 0x4426, 0x242b, 0x2472, 0x2486]⟩,
  -- 1192; 121874-121923
  ⟨cs! "0047_5a52_5406", "Somfy", "ZRTSI-VNODE", "Z-Wave to RTS Interface Virtual Node", cs! "0047", cs! "5A52", cs! "5406",
   [0x2400, 0x2420, 0x2425, 0x4426, 0x242b, 0x2472, 0x2486]⟩,
  -- 1194; 121924-121973
  ⟨cs! "0047_5a52_5407", "Somfy", "ZRTSI-VNODE", "Z-Wave to RTS Interface Virtual Node", cs! "0047", cs! "5A52", cs! "5407",
   [0x2400, 0x2420, 0x2425, 0x4426, 0x242b, 0x2472, 0x2486]⟩,
  -- 1196; 121974-122023
  ⟨cs! "0047_5a52_5408", "Somfy", "ZRTSI-VNODE", "Z-Wave to RTS Interface Virtual Node", cs! "0047", cs! "5A52", cs! "5408",
   [0x2400, 0x2420, 0x2425, 0x4426, 0x242b, 0x2472, 0x2486]⟩,
  -- 1198; 122024-122073
  ⟨cs! "0047_5a52_5409", "Somfy", "ZRTSI-VNODE", "Z-Wave to RTS Interface Virtual Node", cs! "0047", cs! "5A52", cs! "5409",
   [0x2400, 0x2420, 0x2425, 0x4426, 0x242b, 0x2472, 0x2486]⟩,
  -- 1200; 122074-122123
  ⟨cs! "0047_5a52_540a", "Somfy", "ZRTSI-VNODE", "Z-Wave to RTS Interface Virtual Node", cs! "0047", cs! "5A52", cs! "540A",
   [0x2400, 0x2420, 0x2425, 0x4426, 0x242b, 0x2472, 0x2486]⟩,
  -- 1202; 122124-122173
  ⟨cs! "0047_5a52_540b", "Somfy", "ZRTSI-VNODE", "Z-Wave to RTS Interface Virtual Node", cs! "0047", cs! "5A52", cs! "540B",
   [0x2400, 0x2420, 0x2425, 0x4426, 0x242b, 0x2472, 0x2486]⟩,
  -- 1204; 122174-122223
  ⟨cs! "0047_5a52_540c", "Somfy", "ZRTSI-VNODE", "Z-Wave to RTS Interface Virtual Node", cs! "0047", cs! "5A52", cs! "540C",
   [0x2400, 0x2420, 0x2425, 0x4426, 0x242b, 0x2472, 0x2486]⟩,
  -- 1206; 122224-122273
  ⟨cs! "0047_5a52_540d", "Somfy", "ZRTSI-VNODE", "Z-Wave to RTS Interface Virtual Node", cs! "0047", cs! "5A52", cs! "540D",
   [0x2400, 0x2420, 0x2425, 0x4426, 0x242b, 0x2472, 0x2486]⟩,
  -- 1208; 122274-122323
  ⟨cs! "0047_5a52_540e", "Somfy", "ZRTSI-VNODE", "Z-Wave to RTS Interface Virtual Node", cs! "0047", cs! "5A52", cs! "540E",
   [0x2400, 0x2420, 0x2425, 0x4426, 0x242b, 0x2472, 0x2486]⟩,
  -- 1210; 122324-122373
  ⟨cs! "0047_5a52_540f", "Somfy", "ZRTSI-VNODE", "Z-Wave to RTS Interface Virtual Node", cs! "0047", cs! "5A52", cs! "540F",
   [0x2400, 0x2420, 0x2425, 0x4426, 0x242b, 0x2472, 0x2486]⟩,
  -- 1212; 122374-122423
  ⟨cs! "0047_5a52_5410", "Somfy", "ZRTSI-VNODE", "Z-Wave to RTS Interface Virtual Node", cs! "0047", cs! "5A52", cs! "5410",
   [0x2400, 0x2420, 0x2425, 0x4426, 0x242b, 0x2472, 0x2486]⟩,
  -- 1214; 122424-122515
  ⟨cs! "0239_0001_0001", "Stelpro", "STZW402", "4000W Thermostat", cs! "0239", cs! "0001", cs! "0001",
   [0x2400, 0x2520, 0x2531, 0x3540, 0x2542, 0x3543, 0x1559, 0x255a, 0x255e, 0x2572, 0x2573, 0x2585, 0x2586]⟩,
  -- 1216; 122516-122685
  ⟨cs! "0276_0139_0001", "Systemair Sverige AS", "29990", "Remotely Controlled Ventilation", cs! "0276", cs! "0139", cs! "0001",
   [0x2400, 0x2420, 0x2522, 0x2525, 0x2540, 0x2543, 0x2544, 0x2559, 0x255a, 0x255e, 0x2570, 0x4571, 0x2572, 0x2573, 0x257a, 0x3585, 0x3586]⟩,
  -- 1218; 122686-122921
  ⟨cs! "0176_0005_0001", "Telldus Technologies AB", "TZDW-100", "Door/window sensor", cs! "0176", cs! "0005", cs! "0001",
   [0x2400, 0x2420, 0x3430, 0x245a, 0x345e, 0x2470, 0x5471, 0x2472, 0x2473, 0x347a, 0x2480, 0x3484, 0x3485, 0x3486, 0x348e]⟩,
  -- 1220; 122922-123062
  ⟨cs! "0176_0003_0001", "Telldus Technologies AB", "TZWP-100", "Wall Plug Switch", cs! "0176", cs! "0003", cs! "0001",
   [0x2400, 0x2420, 0x2525, 0x2527, 0x2559, 0x255a, 0x255e, 0x2570, 0x2572, 0x2573, 0x3575, 0x257a, 0x2585, 0x2586]⟩,
  -- 1222; 123063-123184
  ⟨cs! "019b_0001_0001", "ThermoFloor", "TF016", "ZWave Thermostat", cs! "019B", cs! "0001", cs! "0001",
   [0x2400, 0x2420, 0x7531, 0x4032, 0x2540, 0x2543, 0x2559, 0x255a, 0x255e, 0x2570, 0x2572, 0x2573, 0x2585, 0x2586]⟩,
  -- 1224; 123185-123378
  ⟨cs! "0118_0002_0002", "TKB Home", "TSM02", "Slim Multi-Sensor", cs! "0118", cs! "0002", cs! "0002",
   [0x2400, 0x2420, 0x3530, 0x6531, 0x2570, 0x2572, 0x2580, 0x3584, 0x2585, 0x2586]⟩,
  -- 1226; 123379-123492
  ⟨cs! "0118_0001_0006", "TKB Home", "TZ08", "Rollershutter Controller", cs! "0118", cs! "0001", cs! "0006",
   [0x2400, 0x2420, 0x2425, 0x4426, 0x242b, 0x4432, 0x2470, 0x2471, 0x2472, 0x2485, 0x2486]⟩,
  -- 1228; 123493-123677
  ⟨cs! "0118_0311_0203", "TKB Home", "TZ37", "Z-Wave TKB Double Relay Wall Switch", cs! "0118", cs! "0311", cs! "0203",
   [0x2400, 0x2420, 0x2425, 0x2427, 0x242b, 0x242c, 0x2459, 0x245a, 0x245e, 0x3460, 0x2470, 0x2472, 0x2473, 0x247a, 0x3485, 0x3486]⟩,
  -- 1230; 123678-123781
  ⟨cs! "0118_0003_0004", "TKB Home", "TZ55D", "Dual Paddle Wall Dimmer", cs! "0118", cs! "0003", cs! "0004",
   [0x2400, 0x2520, 0x2526, 0x2527, 0x252b, 0x252c, 0x2559, 0x255a, 0x255e, 0x2570, 0x2572, 0x2573, 0x257a, 0x3585, 0x3586]⟩,
  -- 1232; 123782-123994
  ⟨cs! "0118_0004_0003", "TKB Home", "TZ65D", "Dual Paddle Wall Dimmer", cs! "0118", cs! "0004", cs! "0003",
   [0x2400, 0x2420, 0x2526, 0x1527, 0x2570, 0x2572, 0x2585, 0x2586]⟩]

/-- database/devices.go 1234-1353 -/
def devRows10 : List DevRow := [
  -- 1234; 123995-124207
  ⟨cs! "0118_0808_0808", "TKB Home", "TZ65D", "Dual Paddle Wall Dimmer", cs! "0118", cs! "0808", cs! "0808",
   [0x2400, 0x2420, 0x2526, 0x1527, 0x2570, 0x2572, 0x2585, 0x2586]⟩,
  -- 1236; 124208-124426
  ⟨cs! "0118_0102_1020", "TKB Home", "TZ66D", "Dual Paddle Wall Switch", cs! "0118", cs! "0102", cs! "1020",
   [0x2400, 0x2420, 0x2525, 0x1527, 0x2570, 0x2572, 0x1573, 0x2585, 0x2586]⟩,
  -- 1238; 124427-124510
  ⟨cs! "0118_0003_0008", "TKB Home", "TZ67", "Wall Plug Dimmer", cs! "0118", cs! "0003", cs! "0008",
   [0x2400, 0x2420, 0x2526, 0x1527, 0x2570, 0x2572, 0x1575, 0x1577, 0x2586]⟩,
  -- 1240; 124511-124594
  ⟨cs! "0118_0202_0611", "TKB Home", "TZ67", "Wall Plug Dimmer", cs! "0118", cs! "0202", cs! "0611",
   [0x2400, 0x2420, 0x2526, 0x1527, 0x2570, 0x2572, 0x1575, 0x1577, 0x2586]⟩,
  -- 1242; 124595-124666
  ⟨cs! "0118_0003_0002", "TKB Home", "TZ68", "Wall Plug", cs! "0118", cs! "0003", cs! "0002",
   [0x2400, 0x2420, 0x2525, 0x2527, 0x2570, 0x2572, 0x2586]⟩,
  -- 1244; 124667-124738
  ⟨cs! "0118_0101_0103", "TKB Home", "TZ68", "Wall Plug", cs! "0118", cs! "0101", cs! "0103",
   [0x2400, 0x2420, 0x2525, 0x2527, 0x2570, 0x2572, 0x2586]⟩,
  -- 1246; 124739-124876
  ⟨cs! "0118_0004_0002", "TKB Home", "TZ69", "Smart meter switch", cs! "0118", cs! "0004", cs! "0002",
   [0x2400, 0x2420, 0x2425, 0x2427, 0x4432, 0x2470, 0x2472, 0x2485, 0x2486]⟩,
  -- 1248; 124877-124988
  ⟨cs! "0118_0001_0001", "TKB Home", "TZ88", "Energy Monitoring Wall Plug", cs! "0118", cs! "0001", cs! "0001",
   [0x2400, 0x2520, 0x2525, 0x1527, 0x4532, 0x2570, 0x2572, 0x2585, 0x2586]⟩,
  -- 1250; 124989-125100
  ⟨cs! "0118_0001_0011", "TKB Home", "TZ88", "Energy Monitoring Wall Plug", cs! "0118", cs! "0001", cs! "0011",
   [0x2400, 0x2520, 0x2525, 0x1527, 0x4532, 0x2570, 0x2572, 0x2585, 0x2586]⟩,
  -- 1252; 125101-125227
  ⟨cs! "008b_5452_5435", "Trane Corporation", "AZEMT500BB32MA", "American Standard Z-Wave Programmable Thermostat", cs! "008B", cs! "5452", cs! "5435",
   [0x2400, 0x2520, 0x252b, 0x252c, 0x2531, 0x2540, 0x2542, 0x2543, 0x2544, 0x2545, 0x2570, 0x2572, 0x2573, 0x2581, 0x2585, 0x2586]⟩,
  -- 1254; 125228-125341
  ⟨cs! "008b_5452_5431", "Trane Corporation", "TZEMT400BB32MAA", "Trane Z-Wave Programmable Thermostat", cs! "008B", cs! "5452", cs! "5431",
   [0x2400, 0x2420, 0x2531, 0x2540, 0x2542, 0x2543, 0x2544, 0x2545, 0x2570, 0x2572, 0x1576, 0x2581, 0x2585, 0x2586]⟩,
  -- 1256; 125342-125455
  ⟨cs! "008b_5452_5433", "Trane Corporation", "TZEMT400BB32MAA", "Trane Z-Wave Programmable Thermostat", cs! "008B", cs! "5452", cs! "5433",
   [0x2400, 0x2420, 0x2531, 0x2540, 0x2542, 0x2543, 0x2544, 0x2545, 0x2570, 0x2572, 0x1576, 0x2581, 0x2585, 0x2586]⟩,
  -- 1258; 125456-125569
  ⟨cs! "008b_5452_5436", "Trane Corporation", "TZEMT400BB32MAA", "Trane Z-Wave Programmable Thermostat", cs! "008B", cs! "5452", cs! "5436",
   [0x2400, 0x2420, 0x2531, 0x2540, 0x2542, 0x2543, 0x2544, 0x2545, 0x2570, 0x2572, 0x1576, 0x2581, 0x2585, 0x2586]⟩,
  -- 1260; 125570-125654
  ⟨cs! "008b_5452_5439", "Trane Corporation", "XL624", "Touchscreen Comfort Control Thermostat", cs! "008B", cs! "5452", cs! "5439",
   [0x2400, 0x2420, 0x242b, 0x6431, 0x2440, 0x3442, 0x3443, 0x3444, 0x2445, 0x2470, 0x2472, 0x2485, 0x2486, 0x248f]⟩,
  -- 1262; 125655-125739
  ⟨cs! "008b_5452_5443", "Trane Corporation", "XL624", "Touchscreen Comfort Control Thermostat", cs! "008B", cs! "5452", cs! "5443",
   [0x2400, 0x2420, 0x242b, 0x6431, 0x2440, 0x3442, 0x3443, 0x3444, 0x2445, 0x2470, 0x2472, 0x2485, 0x2486, 0x248f]⟩,
  -- 1264; 125740-125860
  ⟨cs! "008b_5452_5442", "Trane Corporation", "Trane XR524", "Touchscreen Comfort Control Thermostat", cs! "008B", cs! "5452", cs! "5442",
   [0x2400, 0x2420, 0x252b, 0x152c, 0x6531, 0x2540, 0x3542, 0x3543, 0x3544, 0x2545, 0x2570, 0x2572, 0x2573, 0x157a, 0x2581, 0x2585, 0x2586, 0x258f]⟩,
  -- 1266; 125861-125930
  ⟨cs! "0152_0003_0512", "UFairy G.R. Tech", "GR-105", "Water Shutoff Valve", cs! "0152", cs! "0003", cs! "0512",
   [0x2400, 0x2420, 0x2425, 0x2427, 0x2459, 0x245a, 0x245e, 0x2472, 0x2473, 0x2485, 0x3486]⟩,
  -- 1268; 125931-126005
  ⟨cs! "0152_0500_0004", "UFairy G.R. Tech", "GR-M-202N-2", "Inwall dual switch", cs! "0152", cs! "0500", cs! "0004",
   [0x2400, 0x2420, 0x2425, 0x2427, 0x2459, 0x245a, 0x245e, 0x3460, 0x2472, 0x2473, 0x3485, 0x3486]⟩,
  -- 1270; 126006-126095
  ⟨cs! "0152_0500_0003", "UFairy G.R. Tech", "ZSE02", "Zooz Z‑Wave Plus Motion Sensor", cs! "0152", cs! "0500", cs! "0003",
   [0x2400, 0x2420, 0x1430, 0x2559, 0x255a, 0x255e, 0x5571, 0x2572, 0x2573, 0x2580, 0x3584, 0x3585, 0x3586]⟩,
  -- 1272; 126096-126150
  ⟨cs! "0109_2007_0703", "Vision Security", "PID11995", "Monoprice ZWave On/Off Plugin", cs! "0109", cs! "2007", cs! "0703",
   [0x2400, 0x2420, 0x2525, 0x2527, 0x2572, 0x2575, 0x2586]⟩,
  -- 1274; 126151-126281
  ⟨cs! "0109_201a_1aa4", "Vision Security", "PID15903", "Plug In Power Monitor", cs! "0109", cs! "201A", cs! "1AA4",
   [0x2400, 0x2420, 0x2522, 0x2525, 0x2527, 0x4532, 0x2559, 0x255a, 0x255e, 0x2570, 0x2572, 0x2573, 0x257a, 0x3585, 0x3586, 0x1598]⟩,
  -- 1276; 126282-126382
  ⟨cs! "0109_2001_0102", "Vision Security", "ZD2102", "Door Window Sensor", cs! "0109", cs! "2001", cs! "0102",
   [0x2500, 0x2420, 0x2559, 0x255a, 0x2470, 0x2471, 0x2472, 0x257a, 0x2480, 0x3484, 0x2485, 0x2486, 0x1198]⟩,
  -- 1278; 126383-126483
  ⟨cs! "0109_2001_0105", "Vision Security", "ZD2102", "Door Window Sensor", cs! "0109", cs! "2001", cs! "0105",
   [0x2500, 0x2420, 0x2559, 0x255a, 0x2470, 0x2471, 0x2472, 0x257a, 0x2480, 0x3484, 0x2485, 0x2486, 0x1198]⟩,
  -- 1280; 126484-126584
  ⟨cs! "0109_2001_0106", "Vision Security", "ZD2102", "Door Window Sensor", cs! "0109", cs! "2001", cs! "0106",
   [0x2500, 0x2420, 0x2559, 0x255a, 0x2470, 0x2471, 0x2472, 0x257a, 0x2480, 0x3484, 0x2485, 0x2486, 0x1198]⟩,
  -- 1282; 126585-126697
  ⟨cs! "0109_2022_2201", "Vision Security", "ZD2105", "Recessed Door Window Sensor", cs! "0109", cs! "2022", cs! "2201",
   [0x2400, 0x2420, 0x1430, 0x2559, 0x255a, 0x255e, 0x4571, 0x2572, 0x2573, 0x257a, 0x2580, 0x3584, 0x2585, 0x3586]⟩,
  -- 1284; 126698-126762
  ⟨cs! "0109_201f_1f10", "Vision Security", "ZD2201", "Multisensor 4in1", cs! "0109", cs! "201F", cs! "1F10",
   [0x2400, 0x2420, 0x6431, 0x2470, 0x2471, 0x2472, 0x2480, 0x3484, 0x2485, 0x2486]⟩,
  -- 1286; 126763-126822
  ⟨cs! "0109_200a_0a02", "Vision Security", "ZG8101", "Garage Door Tilt Sensor", cs! "0109", cs! "200A", cs! "0A02",
   [0x2400, 0x2420, 0x2430, 0x2471, 0x2472, 0x2480, 0x3484, 0x2485, 0x2486]⟩,
  -- 1288; 126823-126867
  ⟨cs! "0109_2008_0801", "Vision Security", "ZL7101", "Lamp Dimmer Module", cs! "0109", cs! "2008", cs! "0801",
   [0x2526, 0x2527, 0x2572, 0x2575, 0x2586]⟩,
  -- 1290; 126868-126945
  ⟨cs! "0109_200c_0c02", "Vision Security", "ZL7431", "In Wall Relay Switch", cs! "0109", cs! "200C", cs! "0C02",
   [0x2400, 0x2420, 0x2525, 0x2527, 0x2570, 0x2572, 0x2585, 0x2586]⟩,
  -- 1292; 126946-127023
  ⟨cs! "0109_200c_0c06", "Vision Security", "ZL7431", "In Wall Relay Switch", cs! "0109", cs! "200C", cs! "0C06",
   [0x2400, 0x2420, 0x2525, 0x2527, 0x2570, 0x2572, 0x2585, 0x2586]⟩,
  -- 1294; 127024-127101
  ⟨cs! "0109_2016_1616", "Vision Security", "ZL7431", "In Wall Relay Switch", cs! "0109", cs! "2016", cs! "1616",
   [0x2400, 0x2420, 0x2525, 0x2527, 0x2570, 0x2572, 0x2585, 0x2586]⟩,
  -- 1296; 127102-127156
  ⟨cs! "0109_2017_1717", "Vision Security", "ZL7432", "In Wall Dual Relay Switch", cs! "0109", cs! "2017", cs! "1717",
   [0x2400, 0x2420, 0x2425, 0x2427, 0x3460, 0x2472, 0x2485, 0x2486]⟩,
  -- 1298; 127157-127290
  ⟨cs! "0109_2005_0503", "Vision Security", "ZM1601", "Battery Operated Siren", cs! "0109", cs! "2005", cs! "0503",
   [0x2400, 0x1420, 0x2425, 0x2459, 0x245a, 0x245e, 0x2470, 0x5471, 0x2472, 0x2473, 0x247a, 0x2480, 0x3485, 0x3486]⟩,
  -- 1300; 127291-127424
  ⟨cs! "0109_2005_0508", "Vision Security", "ZM1601", "Battery Operated Siren", cs! "0109", cs! "2005", cs! "0508",
   [0x2400, 0x1420, 0x2425, 0x2459, 0x245a, 0x245e, 0x2470, 0x5471, 0x2472, 0x2473, 0x247a, 0x2480, 0x3485, 0x3486]⟩,
  -- 1302; 127425-127517
  ⟨cs! "0109_2009_0903", "Vision Security", "ZM1602", "AC/DC Siren", cs! "0109", cs! "2009", cs! "0903",
   [0x2400, 0x2420, 0x2425, 0x2470, 0x2472, 0x2486]⟩,
  -- 1304; 127518-127610
  ⟨cs! "0109_2009_0908", "Vision Security", "ZM1602", "AC/DC Siren", cs! "0109", cs! "2009", cs! "0908",
   [0x2400, 0x2420, 0x2425, 0x2470, 0x2472, 0x2486]⟩,
  -- 1306; 127611-127687
  ⟨cs! "0109_2006_0620", "Vision Security", "ZM1702", "Door Lock with Handle", cs! "0109", cs! "2006", cs! "0620",
   [0x2220, 0x224c, 0x324e, 0x2262, 0x2263, 0x2772, 0x2780, 0x2285, 0x2786, 0x228b, 0x2598]⟩,
  -- 1308; 127688-127764
  ⟨cs! "0109_2006_0621", "Vision Security", "ZM1702", "Door Lock with Handle", cs! "0109", cs! "2006", cs! "0621",
   [0x2220, 0x224c, 0x324e, 0x2262, 0x2263, 0x2772, 0x2780, 0x2285, 0x2786, 0x228b, 0x2598]⟩,
  -- 1310; 127765-127873
  ⟨cs! "0109_2002_0201", "Vision Security", "ZP3102", "Motion Sensor", cs! "0109", cs! "2002", cs! "0201",
   [0x2400, 0x2420, 0x2430, 0x5431, 0x2470, 0x2471, 0x2472, 0x2480, 0x3484, 0x2485, 0x2486]⟩,
  -- 1312; 127874-127982
  ⟨cs! "0109_2002_0202", "Vision Security", "ZP3102", "Motion Sensor", cs! "0109", cs! "2002", cs! "0202",
   [0x2400, 0x2420, 0x2430, 0x5431, 0x2470, 0x2471, 0x2472, 0x2480, 0x3484, 0x2485, 0x2486]⟩,
  -- 1314; 127983-128091
  ⟨cs! "0109_2002_0203", "Vision Security", "ZP3102", "Motion Sensor", cs! "0109", cs! "2002", cs! "0203",
   [0x2400, 0x2420, 0x2430, 0x5431, 0x2470, 0x2471, 0x2472, 0x2480, 0x3484, 0x2485, 0x2486]⟩,
  -- 1316; 128092-128200
  ⟨cs! "0109_2002_0204", "Vision Security", "ZP3102", "Motion Sensor", cs! "0109", cs! "2002", cs! "0204",
   [0x2400, 0x2420, 0x2430, 0x5431, 0x2470, 0x2471, 0x2472, 0x2480, 0x3484, 0x2485, 0x2486]⟩,
  -- 1318; 128201-128309
  ⟨cs! "0109_2002_0205", "Vision Security", "ZP3102", "Motion Sensor", cs! "0109", cs! "2002", cs! "0205",
   [0x2400, 0x2420, 0x2430, 0x5431, 0x2470, 0x2471, 0x2472, 0x2480, 0x3484, 0x2485, 0x2486]⟩,
  -- 1320; 128310-128369
  ⟨cs! "0109_2003_0302", "Vision Security", "ZP3103", "Shock Sensor", cs! "0109", cs! "2003", cs! "0302",
   [0x2400, 0x2420, 0x2430, 0x2471, 0x2472, 0x2480, 0x3484, 0x2485, 0x2486]⟩,
  -- 1322; 128370-128471
  ⟨cs! "0109_2003_0306", "Vision Security", "ZS5101", "Shock Sensor", cs! "0109", cs! "2003", cs! "0306",
   [0x2400, 0x2420, 0x1430, 0x2559, 0x255a, 0x255e, 0x5571, 0x2572, 0x2573, 0x257a, 0x2580, 0x3584, 0x3585, 0x3586, 0x1598]⟩,
  -- 1324; 128472-128573
  ⟨cs! "0109_2003_0307", "Vision Security", "ZS5101", "Shock Sensor", cs! "0109", cs! "2003", cs! "0307",
   [0x2400, 0x2420, 0x1430, 0x2559, 0x255a, 0x255e, 0x5571, 0x2572, 0x2573, 0x257a, 0x2580, 0x3584, 0x3585, 0x3586, 0x1598]⟩,
  -- 1326; 128574-128633
  ⟨cs! "0109_2004_0403", "Vision Security", "ZS6101", "Smoke Detector", cs! "0109", cs! "2004", cs! "0403",
   [0x2400, 0x2420, 0x2430, 0x2471, 0x2472, 0x2480, 0x3484, 0x2485, 0x2486]⟩,
  -- 1328; 128634-128700
  ⟨cs! "0109_200f_0f03", "Vision Security", "ZS6301", "CO Detector", cs! "0109", cs! "200F", cs! "0F03",
   [0x2400, 0x2420, 0x2530, 0x3571, 0x2572, 0x2580, 0x3584, 0x2585, 0x2586]⟩,
  -- 1330; 128701-128915
  ⟨cs! "0109_2021_2101", "Vision Security", "ZSE40", "Zooz 4-in-one motion/temperature/humidity/luminance sensor", cs! "0109", cs! "2021", cs! "2101",
   [0x2400, 0x2420, 0x8431, 0x2459, 0x245a, 0x345e, 0x2470, 0x2471, 0x2472, 0x2473, 0x2480, 0x3484, 0x3485, 0x3486, 0x2498]⟩,
  -- 1332; 128916-128998
  ⟨cs! "0109_200d_0d03", "Vision Security", "ZW4101", "Drapery controller (up/stop/down)", cs! "0109", cs! "200D", cs! "0D03",
   [0x2400, 0x2420, 0x2425, 0x4426, 0x2470, 0x2472, 0x2486]⟩,
  -- 1334; 128999-129112
  ⟨cs! "0149_0012_0104", "wiDom", "WiDom Universal Relay Switch", "WiDom Universal Relay Switch", cs! "0149", cs! "0012", cs! "0104",
   [0x2400, 0x2420, 0x2425, 0x2427, 0x2470, 0x2472, 0x2477, 0x2485, 0x2486]⟩,
  -- 1336; 129113-129459
  ⟨cs! "0149_1214_0504", "wiDom", "WDS", " Universal Double Switch", cs! "0149", cs! "1214", cs! "0504",
   [0x2400, 0x2420, 0x2425, 0x2427, 0x4432, 0x3460, 0x2470, 0x2472, 0x2485, 0x2486]⟩,
  -- 1338; 129460-130089
  ⟨cs! "0149_1214_0304", "wiDom", "WPS104", "Energy Driven Switch", cs! "0149", cs! "1214", cs! "0304",
   [0x2400, 0x1420, 0x2425, 0x2427, 0x4431, 0x4432, 0x2459, 0x245a, 0x245e, 0x2470, 0x2472, 0x2473, 0x247a, 0x3485, 0x3486]⟩,
  -- 1340; 130090-130112
  ⟨cs! "015d_0651_f51c", "Willis Electric Co., Ltd.", "ZEN20", "Smart Energy Power Strip", cs! "015D", cs! "0651", cs! "F51C",
   [0x1020, 0x2025]⟩,
  -- 1342; 130113-130197
  ⟨cs! "015d_0111_231c", "Willis Electric Co., Ltd.", "ZEN21", "Zooz Z-Wave On / Off Light Switch ZEN21", cs! "015D", cs! "0111", cs! "231C",
   [0x2400, 0x2420, 0x2525, 0x2527, 0x2559, 0x255a, 0x255e, 0x2570, 0x2572, 0x2573, 0x3585, 0x3586]⟩,
  -- 1344; 130198-130282
  ⟨cs! "015d_1111_1e1c", "Willis Electric Co., Ltd.", "ZEN23", "Wall mounted switch", cs! "015D", cs! "1111", cs! "1E1C",
   [0x2400, 0x2420, 0x2525, 0x2527, 0x2559, 0x255a, 0x255e, 0x2570, 0x2572, 0x2573, 0x3585, 0x3586]⟩,
  -- 1346; 130283-130367
  ⟨cs! "015d_0111_1f1c", "Willis Electric Co., Ltd.", "Zen24", "Toggle Dimmer", cs! "015D", cs! "0111", cs! "1F1C",
   [0x2400, 0x2420, 0x2526, 0x2527, 0x2559, 0x255a, 0x255e, 0x2570, 0x2572, 0x2573, 0x3585, 0x3586]⟩,
  -- 1348; 130368-130447
  ⟨cs! "015d_0221_251c", "Willis Electric Co., Ltd.", "ZW37", "show home, Inovelli 2 channel smart plug", cs! "015D", cs! "0221", cs! "251C",
   [0x2400, 0x1420, 0x2425, 0x2427, 0x2459, 0x245a, 0x245e, 0x3460, 0x2472, 0x2473, 0x3485, 0x3486, 0x448e]⟩,
  -- 1350; 130448-130516
  ⟨cs! "0097_1122_5501", "Wintop", "iModuleDouble", "Dual In-wall Switch", cs! "0097", cs! "1122", cs! "5501",
   [0x2500, 0x2520, 0x2525, 0x2527, 0x252b, 0x252c, 0x3560, 0x2572, 0x2586]⟩,
  -- 1352; 130517-130601
  ⟨cs! "0097_6943_5501", "Wintop", "PlugInSwitch", "PlugIn Switch with power monitoring", cs! "0097", cs! "6943", cs! "5501",
   [0x2400, 0x2420, 0x2525, 0x2527, 0x2531, 0x3532, 0x2570, 0x2572, 0x2573, 0x2575, 0x2585, 0x2586]⟩]

/-- database/devices.go 1354-1445 -/
def devRows11 : List DevRow := [
  -- 1354; 130602-130661
  ⟨cs! "0097_1200_5502", "Wintop", "DHSZWDMIW01", "DHS Z-Wave Micro Dimmer", cs! "0097", cs! "1200", cs! "5502",
   [0x2400, 0x2420, 0x2426, 0x2427, 0x242b, 0x2470, 0x2472, 0x2485, 0x2486]⟩,
  -- 1356; 130662-130746
  ⟨cs! "0097_6943_4501", "Wintop", "EasyPlug", "Wall Plug", cs! "0097", cs! "6943", cs! "4501",
   [0x2400, 0x2420, 0x2525, 0x2527, 0x2531, 0x3532, 0x2570, 0x2572, 0x2573, 0x2575, 0x2585, 0x2586]⟩,
  -- 1358; 130747-130970
  ⟨cs! "0097_0024_0045", "Wintop", "iShutter", "Wintop iShutter", cs! "0097", cs! "0024", cs! "0045",
   []⟩,
  -- 1360; 130971-131111
  ⟨cs! "0097_1182_4501", "Wintop", "ITEMP", "Contact and temperature sensor", cs! "0097", cs! "1182", cs! "4501",
   [0x2400, 0x2420, 0x2530, 0x2531, 0x2570, 0x2571, 0x2572, 0x2580, 0x2584, 0x2585, 0x2586]⟩,
  -- 1362; 131112-131252
  ⟨cs! "0097_1188_4501", "Wintop", "ITEMP", "Contact and temperature sensor", cs! "0097", cs! "1188", cs! "4501",
   [0x2400, 0x2420, 0x2530, 0x2531, 0x2570, 0x2571, 0x2572, 0x2580, 0x2584, 0x2585, 0x2586]⟩,
  -- 1364; 131253-131295
  ⟨cs! "0097_6941_5501", "Wintop", "LE120", "Appliance Module", cs! "0097", cs! "6941", cs! "5501",
   [0x2400, 0x2420, 0x2525, 0x2527, 0x2572]⟩,
  -- 1366; 131296-131446
  ⟨cs! "0097_1180_5501", "Wintop", "Multisensor", "Wintop Multi-sensor", cs! "0097", cs! "1180", cs! "5501",
   [0x2400, 0x2420, 0x2530, 0x2531, 0x3560, 0x2570, 0x2571, 0x2572, 0x2580, 0x2584, 0x2585, 0x2586]⟩,
  -- 1368; 131447-131585
  ⟨cs! "0097_6131_4501", "Wintop", "WTRFID", "Mini Keypad RFID/Z-Wave", cs! "0097", cs! "6131", cs! "4501",
   [0x2400, 0x2420, 0x2525, 0x2563, 0x2570, 0x3571, 0x2572, 0x2476, 0x2580, 0x2584, 0x2585, 0x2586]⟩,
  -- 1370; 131586-131807
  ⟨cs! "0129_0006_0000", "ASSA ABLOY", "YKFCON", "Smart Living Keyfree Smart Lock", cs! "0129", cs! "0006", cs! "0000",
   [0x2400, 0x2420, 0x234c, 0x434e, 0x2262, 0x2263, 0x2270, 0x2271, 0x2572, 0x3275, 0x2276, 0x2280, 0x2285, 0x2586, 0x328a, 0x228b, 0x2798]⟩,
  -- 1372; 131808-131842
  ⟨cs! "0129_0004_0800", "Yale Locks", "YRD110", "Yale button deadbolt without keyway", cs! "0129", cs! "0004", cs! "0800",
   [0x2400, 0x2420, 0x2472, 0x2486]⟩,
  -- 1374; 131843-132033
  ⟨cs! "0129_0002_0800", "ASSA ABLOY", "YRD120", "Touchscreen deadbolt without key", cs! "0129", cs! "0002", cs! "0800",
   [0x2400, 0x2220, 0x224c, 0x224e, 0x2262, 0x2263, 0x2670, 0x2671, 0x2772, 0x2675, 0x2480, 0x2486, 0x228a, 0x228b, 0x2798]⟩,
  -- 1376; 132034-132229
  ⟨cs! "0129_0004_0000", "ASSA ABLOY", "YRD210", "Push Button Deadbolt", cs! "0129", cs! "0004", cs! "0000",
   [0x2400, 0x2420, 0x2462, 0x2463, 0x2470, 0x2471, 0x2472, 0x2475, 0x2476, 0x2480, 0x2485, 0x2486, 0x2498]⟩,
  -- 1378; 132230-132425
  ⟨cs! "0129_0004_aa00", "ASSA ABLOY", "YRD210", "Push Button Deadbolt", cs! "0129", cs! "0004", cs! "AA00",
   [0x2400, 0x2420, 0x2462, 0x2463, 0x2470, 0x2471, 0x2472, 0x2475, 0x2476, 0x2480, 0x2485, 0x2486, 0x2498]⟩,
  -- 1380; 132426-132665
  ⟨cs! "0129_0002_0000", "ASSA ABLOY", "YRD220", "Yale Real Living Touchscreen Deadbolt", cs! "0129", cs! "0002", cs! "0000",
   [0x2600, 0x2420, 0x124c, 0x124e, 0x2662, 0x2663, 0x2670, 0x2671, 0x2772, 0x2675, 0x2476, 0x2680, 0x2685, 0x2786, 0x128a, 0x128b, 0x2598]⟩,
  -- 1382; 132666-132905
  ⟨cs! "0129_0002_0209", "ASSA ABLOY", "YRD220", "Yale Real Living Touchscreen Deadbolt", cs! "0129", cs! "0002", cs! "0209",
   [0x2600, 0x2420, 0x124c, 0x124e, 0x2662, 0x2663, 0x2670, 0x2671, 0x2772, 0x2675, 0x2476, 0x2680, 0x2685, 0x2786, 0x128a, 0x128b, 0x2598]⟩,
  -- 1384; 132906-133145
  ⟨cs! "0129_0002_aa00", "ASSA ABLOY", "YRD220", "Yale Real Living Touchscreen Deadbolt", cs! "0129", cs! "0002", cs! "AA00",
   [0x2600, 0x2420, 0x124c, 0x124e, 0x2662, 0x2663, 0x2670, 0x2671, 0x2772, 0x2675, 0x2476, 0x2680, 0x2685, 0x2786, 0x128a, 0x128b, 0x2598]⟩,
  -- 1386; 133146-133385
  ⟨cs! "0129_0002_ffff", "ASSA ABLOY", "YRD220", "Yale Real Living Touchscreen Deadbolt", cs! "0129", cs! "0002", cs! "FFFF",
   [0x2600, 0x2420, 0x124c, 0x124e, 0x2662, 0x2663, 0x2670, 0x2671, 0x2772, 0x2675, 0x2476, 0x2680, 0x2685, 0x2786, 0x128a, 0x128b, 0x2598]⟩,
  -- 1388; 133386-133614
  ⟨cs! "0129_0001_0409", "ASSA ABLOY", "YRL220", "Yale Real Living Touchscreen Lever Lock", cs! "0129", cs! "0001", cs! "0409",
   [0x2600, 0x2420, 0x124c, 0x124e, 0x2662, 0x2663, 0x2670, 0x1671, 0x2772, 0x2675, 0x2476, 0x2680, 0x2685, 0x2786, 0x128a, 0x128b, 0x2598]⟩,
  -- 1390; 133615-133843
  ⟨cs! "0129_842a_3cac", "ASSA ABLOY", "YRL220", "Yale Real Living Touchscreen Lever Lock", cs! "0129", cs! "842A", cs! "3CAC",
   [0x2600, 0x2420, 0x124c, 0x124e, 0x2662, 0x2663, 0x2670, 0x1671, 0x2772, 0x2675, 0x2476, 0x2680, 0x2685, 0x2786, 0x128a, 0x128b, 0x2598]⟩,
  -- 1392; 133844-133995
  ⟨cs! "0131_0002_0002", "Zipato", "RGBWE27ZW", "RGBW bulb", cs! "0131", cs! "0002", cs! "0002",
   [0x2400, 0x2420, 0x3526, 0x2533, 0x1559, 0x155a, 0x155e, 0x2570, 0x2572, 0x1573, 0x157a, 0x2585, 0x2586]⟩,
  -- 1394; 133996-134204
  ⟨cs! "027a_0101_000a", "Zooz", "ZEN06", "Smart Plug with 2 USB ports", cs! "027A", cs! "0101", cs! "000A",
   [0x2400, 0x2420, 0x2425, 0x2427, 0x242b, 0x4432, 0x2470, 0x2472, 0x2485, 0x2486]⟩,
  -- 1396; 134205-134442
  ⟨cs! "027a_0003_0087", "Zooz", "ZEN07", "Zooz Z-Wave Plus Mini Plug On / Off Module ZEN07", cs! "027A", cs! "0003", cs! "0087",
   [0x2400, 0x2520, 0x2525, 0x2527, 0x4532, 0x2559, 0x255a, 0x255e, 0x2570, 0x5571, 0x2572, 0x2573, 0x3585, 0x3586]⟩,
  -- 1398; 134443-134561
  ⟨cs! "027a_0003_0082", "Zooz", "ZSE08", "Zooz Z-Wave Plus Contact Sensor", cs! "027A", cs! "0003", cs! "0082",
   [0x2400, 0x2420, 0x3530, 0x2559, 0x255a, 0x255e, 0x2570, 0x5571, 0x2572, 0x2573, 0x2580, 0x3584, 0x3585, 0x3586]⟩,
  -- 1400; 134562-134751
  ⟨cs! "027a_0083_0003", "Zooz", "ZSE09", "Zooz Z-Wave Motion and Light Mini Sensor", cs! "027A", cs! "0083", cs! "0003",
   [0x1420, 0x3430, 0x8431, 0x1459, 0x145a, 0x345e, 0x1470, 0x3472, 0x1473, 0x1480, 0x3484, 0x3485, 0x3486]⟩,
  -- 1402; 134752-134925
  ⟨cs! "027a_0003_0000", "Zooz", "ZSE30", "Water Sensor", cs! "027A", cs! "0003", cs! "0000",
   [0x2400, 0x2420, 0x3530, 0x2559, 0x255a, 0x255e, 0x2570, 0x9571, 0x2572, 0x2573, 0x2580, 0x3584, 0x3585, 0x3586]⟩,
  -- 1404; 134926-135099
  ⟨cs! "027a_0003_0085", "Zooz", "ZSE30", "Water Sensor", cs! "027A", cs! "0003", cs! "0085",
   [0x2400, 0x2420, 0x3530, 0x2559, 0x255a, 0x255e, 0x2570, 0x9571, 0x2572, 0x2573, 0x2580, 0x3584, 0x3585, 0x3586]⟩,
  -- 1406; 135100-135337
  ⟨cs! "027a_2021_2101", "Zooz", "ZSE40", "4-in-1 Sensor", cs! "027A", cs! "2021", cs! "2101",
   [0x2400, 0x2420, 0x1430, 0x8531, 0x2559, 0x255a, 0x255e, 0x2570, 0x5571, 0x2572, 0x2573, 0x257a, 0x2580, 0x3584, 0x3585, 0x3586]⟩,
  -- 1408; 135338-135770
  ⟨cs! "0115_1000_0003", "Z-Wave.Me", "06436", "Insert blind control", cs! "0115", cs! "1000", cs! "0003",
   [0x2400, 0x2420, 0x2525, 0x2526, 0x2527, 0x2570, 0x2572, 0x2575, 0x2582, 0x2585, 0x2586, 0x2587]⟩,
  -- 1410; 135771-136141
  ⟨cs! "0115_0100_0001", "Z-Wave.Me", "KFOB", "4 button keyfob", cs! "0115", cs! "0100", cs! "0001",
   [0x2400, 0x2420, 0x245b, 0x2470, 0x2472, 0x2480, 0x3484, 0x2485, 0x2486, 0x248f]⟩,
  -- 1412; 136142-136512
  ⟨cs! "0115_0100_0002", "Z-Wave.Me", "KFOB", "4 button keyfob", cs! "0115", cs! "0100", cs! "0002",
   [0x2400, 0x2420, 0x245b, 0x2470, 0x2472, 0x2480, 0x3484, 0x2485, 0x2486, 0x248f]⟩,
  -- 1414; 136513-136577
  ⟨cs! "0115_0000_0000", "Z-Wave.Me", "KFOB-C", "Keyfob", cs! "0115", cs! "0000", cs! "0000",
   [0x2400, 0x2420, 0x245b, 0x2470, 0x2472, 0x2480, 0x3484, 0x2485, 0x2486, 0x248f]⟩,
  -- 1416; 136578-136967
  ⟨cs! "0115_0100_0101", "Z-Wave.Me", "WALLC-S", "Wall Controller", cs! "0115", cs! "0100", cs! "0101",
   [0x2400, 0x2420, 0x1426, 0x142b, 0x142d, 0x145b, 0x2470, 0x2472, 0x2480, 0x3484, 0x2485, 0x2486, 0x248f]⟩,
  -- 1418; 136968-137313
  ⟨cs! "0115_0100_0004", "Z-Wave.Me", "WCD2", "Double Paddle Wall Controller", cs! "0115", cs! "0100", cs! "0004",
   [0x2400, 0x2420, 0x142b, 0x2470, 0x2472, 0x2480, 0x3484, 0x2485, 0x2486]⟩,
  -- 1420; 137314-137684
  ⟨cs! "0115_1000_0001", "Z-Wave.Me", "ZME_05431", "Flush mountable switch", cs! "0115", cs! "1000", cs! "0001",
   [0x2400, 0x2520, 0x2525, 0x1527, 0x252b, 0x152c, 0x152d, 0x2570, 0x2572, 0x1575, 0x1577, 0x2585, 0x2586, 0x1587, 0x158e]⟩,
  -- 1422; 137685-137926
  ⟨cs! "0115_1000_0002", "Z-Wave.Me", "ZME_05433", "Zwave.Me Dimmer Set Everlux", cs! "0115", cs! "1000", cs! "0002",
   [0x2400, 0x2520, 0x3526, 0x2527, 0x252b, 0x152c, 0x152d, 0x2570, 0x2572, 0x2575, 0x2577, 0x2585, 0x2586, 0x2587, 0x158e]⟩,
  -- 1424; 137927-138168
  ⟨cs! "0115_1000_0009", "Z-Wave.Me", "ZME_05433", "Zwave.Me Dimmer Set Everlux", cs! "0115", cs! "1000", cs! "0009",
   [0x2400, 0x2520, 0x3526, 0x2527, 0x252b, 0x152c, 0x152d, 0x2570, 0x2572, 0x2575, 0x2577, 0x2585, 0x2586, 0x2587, 0x158e]⟩,
  -- 1426; 138169-138567
  ⟨cs! "0115_1000_0100", "Z-Wave.Me", "ZME_05461", "Double switch", cs! "0115", cs! "1000", cs! "0100",
   [0x2400, 0x2520, 0x2525, 0x2527, 0x4532, 0x3560, 0x2570, 0x2572, 0x2575, 0x3585, 0x2586, 0x358e]⟩,
  -- 1428; 138568-138828
  ⟨cs! "0115_1000_0200", "Z-Wave.Me", "ZME_06437", "Wall Plug Switch", cs! "0115", cs! "1000", cs! "0200",
   [0x2400, 0x2520, 0x2525, 0x2527, 0x4532, 0x2559, 0x255a, 0x255e, 0x2570, 0x2572, 0x1473, 0x2575, 0x2585, 0x2586, 0x2587, 0x258e]⟩,
  -- 1430; 138829-139038
  ⟨cs! "0115_0400_0004", "Z-Wave.Me", "ZME_06443", "Single Paddle Wall Controller", cs! "0115", cs! "0400", cs! "0004",
   [0x2400, 0x2420, 0x142b, 0x2570, 0x2572, 0x2575, 0x1577, 0x2580, 0x3584, 0x2585, 0x2586, 0x158e]⟩,
  -- 1432; 139039-139248
  ⟨cs! "0115_1000_0004", "Z-Wave.Me", "ZME_06443", "Single Paddle Wall Controller", cs! "0115", cs! "1000", cs! "0004",
   [0x2400, 0x2420, 0x142b, 0x2570, 0x2572, 0x2575, 0x1577, 0x2580, 0x3584, 0x2585, 0x2586, 0x158e]⟩,
  -- 1434; 139249-139437
  ⟨cs! "0115_0024_0001", "Z-Wave.Me", "ZME_FT", "Floor Thermostat", cs! "0115", cs! "0024", cs! "0001",
   [0x2400, 0x2520, 0x5531, 0x2540, 0x2543, 0x2570, 0x2572, 0x2575, 0x2577, 0x3585, 0x2586]⟩,
  -- 1436; 139438-139857
  ⟨cs! "0115_0100_0102", "Z-Wave.Me", "ZME_KFOB-S", "Secure 4 Button Key Chain Controller", cs! "0115", cs! "0100", cs! "0102",
   [0x2400, 0x1420, 0x242d, 0x2459, 0x245a, 0x245b, 0x245e, 0x2470, 0x2472, 0x2473, 0x2480, 0x3484, 0x3485, 0x3486, 0x248f]⟩,
  -- 1438; 139858-140277
  ⟨cs! "0115_0100_0103", "Z-Wave.Me", "ZME_KFOB-S", "Secure 4 Button Key Chain Controller", cs! "0115", cs! "0100", cs! "0103",
   [0x2400, 0x1420, 0x242d, 0x2459, 0x245a, 0x245b, 0x245e, 0x2470, 0x2472, 0x2473, 0x2480, 0x3484, 0x3485, 0x3486, 0x248f]⟩,
  -- 1440; 140278-140785
  ⟨cs! "0115_1000_0300", "Z-Wave.Me", "ZME_RC2", "Z-Wave Remote Control+", cs! "0115", cs! "1000", cs! "0300",
   [0x2400, 0x2420, 0x2526, 0x252b, 0x2570, 0x2572, 0x2580, 0x3584, 0x2585, 0x2586, 0x358e]⟩,
  -- 1442; 140786-140870
  ⟨cs! "0115_0110_0001", "Z-Wave.Me", "ZUNO1S1D1AI1DI", "ZUNO1S1D1AI1DI", cs! "0115", cs! "0110", cs! "0001",
   [0x2400, 0x2420, 0x2425, 0x2459, 0x245a, 0x245e, 0x3460, 0x2470, 0x2472, 0x2473, 0x247a, 0x3485, 0x3486, 0x448e]⟩,
  -- 1444; 140871-141018
  ⟨cs! "0115_0100_0400", "Z-Wave.Me", "Z-Weather", "Z-Wave weather interface", cs! "0115", cs! "0100", cs! "0400",
   [0x2400, 0x2420, 0x1430, 0x7531, 0x4532, 0x2559, 0x255a, 0x255e, 0x2570, 0x2572, 0x2573, 0x2580, 0x3584, 0x2585, 0x2586, 0x2589, 0x158e, 0x258f, 0x159b]⟩]

end Verif.Model.Tables
