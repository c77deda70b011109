import Verif.Model.Tables.Row

/-
Generated by tools/gen_tables.py from /repo/database/devices.go: the cases of the switch in `New`
(lines 33-1446) with the device the called constructor returns.  Before each row: line of the case,
lines of the constructor.  `Parameters` is left out (nothing reads it).
-/

namespace Verif.Model.Tables

/-- database/devices.go 514-633 -/
def devRows4 : List DevRow := [
  -- 514; 53710-54052
  ⟨cs! "010f_0701_3001", "Fibargroup", "FGK101", "Door Opening Sensor", cs! "010F", cs! "0701", cs! "3001",
   [0x2400, 0x2420, 0x2422, 0x242b, 0x2430, 0x6131, 0x2456, 0x2470, 0x2471, 0x2472, 0x2480, 0x3484, 0x2485, 0x2486, 0x249c]⟩,
  -- 516; 54053-54472
  ⟨cs! "010f_1001_1000", "Fibargroup", "FGKF601", "Keyfob", cs! "010F", cs! "1001", cs! "1000",
   [0x2400, 0x2420, 0x2422, 0x2456, 0x2459, 0x245a, 0x445b, 0x245e, 0x2470, 0x2472, 0x2473, 0x3475, 0x247a, 0x2480, 0x3484, 0x3485, 0x3486, 0x448e]⟩,
  -- 518; 54473-55052
  ⟨cs! "010f_0800_1001", "Fibargroup", "FGMS001", "Motion Sensor", cs! "010F", cs! "0800", cs! "1001",
   [0x2400, 0x2420, 0x2530, 0x6531, 0x2556, 0x2570, 0x2572, 0x2580, 0x2584, 0x2585, 0x2586, 0x158e, 0x258f, 0x259c]⟩,
  -- 520; 55053-55632
  ⟨cs! "010f_0800_2001", "Fibargroup", "FGMS001", "Motion Sensor", cs! "010F", cs! "0800", cs! "2001",
   [0x2400, 0x2420, 0x2530, 0x6531, 0x2556, 0x2570, 0x2572, 0x2580, 0x2584, 0x2585, 0x2586, 0x158e, 0x258f, 0x259c]⟩,
  -- 522; 55633-56212
  ⟨cs! "010f_0800_3001", "Fibargroup", "FGMS001", "Motion Sensor", cs! "010F", cs! "0800", cs! "3001",
   [0x2400, 0x2420, 0x2530, 0x6531, 0x2556, 0x2570, 0x2572, 0x2580, 0x2584, 0x2585, 0x2586, 0x158e, 0x258f, 0x259c]⟩,
  -- 524; 56213-56792
  ⟨cs! "010f_0801_1001", "Fibargroup", "FGMS001", "Motion Sensor", cs! "010F", cs! "0801", cs! "1001",
   [0x2400, 0x2420, 0x2530, 0x6531, 0x2556, 0x2570, 0x2572, 0x2580, 0x2584, 0x2585, 0x2586, 0x158e, 0x258f, 0x259c]⟩,
  -- 526; 56793-57372
  ⟨cs! "010f_0801_2001", "Fibargroup", "FGMS001", "Motion Sensor", cs! "010F", cs! "0801", cs! "2001",
   [0x2400, 0x2420, 0x2530, 0x6531, 0x2556, 0x2570, 0x2572, 0x2580, 0x2584, 0x2585, 0x2586, 0x158e, 0x258f, 0x259c]⟩,
  -- 528; 57373-58062
  ⟨cs! "010f_0801_3001", "Fibargroup", "FGMS001", "Motion Sensor", cs! "010F", cs! "0801", cs! "3001",
   [0x2400, 0x2520, 0x2522, 0x2530, 0x8531, 0x2556, 0x2559, 0x255a, 0x255e, 0x2570, 0x4571, 0x2572, 0x2573, 0x257a, 0x2580, 0x3584, 0x2585, 0x2586, 0x158e, 0x1598, 0x259c]⟩,
  -- 530; 58063-58752
  ⟨cs! "010f_8800_3001", "Fibargroup", "FGMS001", "Motion Sensor", cs! "010F", cs! "8800", cs! "3001",
   [0x2400, 0x2520, 0x2522, 0x2530, 0x8531, 0x2556, 0x2559, 0x255a, 0x255e, 0x2570, 0x4571, 0x2572, 0x2573, 0x257a, 0x2580, 0x3584, 0x2585, 0x2586, 0x158e, 0x1598, 0x259c]⟩,
  -- 532; 58753-58998
  ⟨cs! "010f_0f01_1000", "Fibargroup", "FGPB101", "A real push button (switch) available in several colors.", cs! "010F", cs! "0F01", cs! "1000",
   [0x2400, 0x2420, 0x2456, 0x245b, 0x2470, 0x2471, 0x2472, 0x2480, 0x3484, 0x2485, 0x2486]⟩,
  -- 534; 58999-59244
  ⟨cs! "010f_0f01_2000", "Fibargroup", "FGPB101", "A real push button (switch) available in several colors.", cs! "010F", cs! "0F01", cs! "2000",
   [0x2400, 0x2420, 0x2456, 0x245b, 0x2470, 0x2471, 0x2472, 0x2480, 0x3484, 0x2485, 0x2486]⟩,
  -- 536; 59245-59490
  ⟨cs! "010f_0f01_3000", "Fibargroup", "FGPB101", "A real push button (switch) available in several colors.", cs! "010F", cs! "0F01", cs! "3000",
   [0x2400, 0x2420, 0x2456, 0x245b, 0x2470, 0x2471, 0x2472, 0x2480, 0x3484, 0x2485, 0x2486]⟩,
  -- 538; 59491-59736
  ⟨cs! "010f_fb10_1014", "Fibargroup", "FGPB101", "A real push button (switch) available in several colors.", cs! "010F", cs! "FB10", cs! "1014",
   [0x2400, 0x2420, 0x2456, 0x245b, 0x2470, 0x2471, 0x2472, 0x2480, 0x3484, 0x2485, 0x2486]⟩,
  -- 540; 59737-60003
  ⟨cs! "010f_0300_0104", "Fibargroup", "FGR221", "Roller Shutter Controller", cs! "010F", cs! "0300", cs! "0104",
   [0x2400, 0x2420, 0x2525, 0x4526, 0x2527, 0x2550, 0x2570, 0x2572, 0x2573, 0x2585, 0x2586, 0x158e]⟩,
  -- 542; 60004-60270
  ⟨cs! "010f_0300_0106", "Fibargroup", "FGR221", "Roller Shutter Controller", cs! "010F", cs! "0300", cs! "0106",
   [0x2400, 0x2420, 0x2525, 0x4526, 0x2527, 0x2550, 0x2570, 0x2572, 0x2573, 0x2585, 0x2586, 0x158e]⟩,
  -- 544; 60271-60537
  ⟨cs! "010f_0300_0107", "Fibargroup", "FGR221", "Roller Shutter Controller", cs! "010F", cs! "0300", cs! "0107",
   [0x2400, 0x2420, 0x2525, 0x4526, 0x2527, 0x2550, 0x2570, 0x2572, 0x2573, 0x2585, 0x2586, 0x158e]⟩,
  -- 546; 60538-60804
  ⟨cs! "010f_0300_100a", "Fibargroup", "FGR221", "Roller Shutter Controller", cs! "010F", cs! "0300", cs! "100A",
   [0x2400, 0x2420, 0x2525, 0x4526, 0x2527, 0x2550, 0x2570, 0x2572, 0x2573, 0x2585, 0x2586, 0x158e]⟩,
  -- 548; 60805-61071
  ⟨cs! "010f_0300_0109", "Fibargroup", "FGR221", "Roller Shutter Controller", cs! "010F", cs! "0300", cs! "0109",
   [0x2400, 0x2420, 0x2525, 0x4526, 0x2527, 0x2550, 0x2570, 0x2572, 0x2573, 0x2585, 0x2586, 0x158e]⟩,
  -- 550; 61072-61455
  ⟨cs! "010f_0900_1000", "Fibargroup", "FGRGBW", "RGBW Controller", cs! "010F", cs! "0900", cs! "1000",
   [0x2400, 0x2420, 0x2426, 0x2427, 0x3431, 0x3432, 0x2533, 0x3460, 0x2470, 0x2472, 0x2485, 0x2486]⟩,
  -- 552; 61456-61839
  ⟨cs! "010f_0900_2000", "Fibargroup", "FGRGBW", "RGBW Controller", cs! "010F", cs! "0900", cs! "2000",
   [0x2400, 0x2420, 0x2426, 0x2427, 0x3431, 0x3432, 0x2533, 0x3460, 0x2470, 0x2472, 0x2485, 0x2486]⟩,
  -- 554; 61840-62223
  ⟨cs! "010f_0900_3000", "Fibargroup", "FGRGBW", "RGBW Controller", cs! "010F", cs! "0900", cs! "3000",
   [0x2400, 0x2420, 0x2426, 0x2427, 0x3431, 0x3432, 0x2533, 0x3460, 0x2470, 0x2472, 0x2485, 0x2486]⟩,
  -- 556; 62224-62607
  ⟨cs! "010f_0900_4000", "Fibargroup", "FGRGBW", "RGBW Controller", cs! "010F", cs! "0900", cs! "4000",
   [0x2400, 0x2420, 0x2426, 0x2427, 0x3431, 0x3432, 0x2533, 0x3460, 0x2470, 0x2472, 0x2485, 0x2486]⟩,
  -- 558; 62608-63062
  ⟨cs! "010f_0301_1001", "Fibargroup", "FGRM222", "Roller Shutter", cs! "010F", cs! "0301", cs! "1001",
   [0x2400, 0x2420, 0x2425, 0x4526, 0x142b, 0x3431, 0x3532, 0x2470, 0x2472, 0x2573, 0x3575, 0x2485, 0x2486, 0x258e, 0x1491]⟩,
  -- 560; 63063-63517
  ⟨cs! "010f_0301_3001", "Fibargroup", "FGRM222", "Roller Shutter", cs! "010F", cs! "0301", cs! "3001",
   [0x2400, 0x2420, 0x2425, 0x4526, 0x142b, 0x3431, 0x3532, 0x2470, 0x2472, 0x2573, 0x3575, 0x2485, 0x2486, 0x258e, 0x1491]⟩,
  -- 562; 63518-63972
  ⟨cs! "010f_0302_1000", "Fibargroup", "FGRM222", "Roller Shutter", cs! "010F", cs! "0302", cs! "1000",
   [0x2400, 0x2420, 0x2425, 0x4526, 0x142b, 0x3431, 0x3532, 0x2470, 0x2472, 0x2573, 0x3575, 0x2485, 0x2486, 0x258e, 0x1491]⟩,
  -- 564; 63973-64400
  ⟨cs! "010f_0302_3000", "Fibargroup", "FGRM222", "Roller Shutter", cs! "010F", cs! "0302", cs! "3000",
   [0x2400, 0x2420, 0x2525, 0x4526, 0x142b, 0x3531, 0x3532, 0x2570, 0x2572, 0x2573, 0x3575, 0x2585, 0x2586, 0x258e, 0x1591]⟩,
  -- 566; 64401-64719
  ⟨cs! "010f_0400_0102", "Fibargroup", "FGS211", "Relay Switch 1x3kW", cs! "010F", cs! "0400", cs! "0102",
   [0x2400, 0x2420, 0x2425, 0x3460, 0x2470, 0x2472, 0x2485, 0x2486]⟩,
  -- 568; 64720-65038
  ⟨cs! "010f_0400_0104", "Fibargroup", "FGS211", "Relay Switch 1x3kW", cs! "010F", cs! "0400", cs! "0104",
   [0x2400, 0x2420, 0x2425, 0x3460, 0x2470, 0x2472, 0x2485, 0x2486]⟩,
  -- 570; 65039-65357
  ⟨cs! "010f_0400_0105", "Fibargroup", "FGS211", "Relay Switch 1x3kW", cs! "010F", cs! "0400", cs! "0105",
   [0x2400, 0x2420, 0x2425, 0x3460, 0x2470, 0x2472, 0x2485, 0x2486]⟩,
  -- 572; 65358-65676
  ⟨cs! "010f_0400_0106", "Fibargroup", "FGS211", "Relay Switch 1x3kW", cs! "010F", cs! "0400", cs! "0106",
   [0x2400, 0x2420, 0x2425, 0x3460, 0x2470, 0x2472, 0x2485, 0x2486]⟩,
  -- 574; 65677-65995
  ⟨cs! "010f_0400_0107", "Fibargroup", "FGS211", "Relay Switch 1x3kW", cs! "010F", cs! "0400", cs! "0107",
   [0x2400, 0x2420, 0x2425, 0x3460, 0x2470, 0x2472, 0x2485, 0x2486]⟩,
  -- 576; 65996-66314
  ⟨cs! "010f_0400_0108", "Fibargroup", "FGS211", "Relay Switch 1x3kW", cs! "010F", cs! "0400", cs! "0108",
   [0x2400, 0x2420, 0x2425, 0x3460, 0x2470, 0x2472, 0x2485, 0x2486]⟩,
  -- 578; 66315-66633
  ⟨cs! "010f_0400_0109", "Fibargroup", "FGS211", "Relay Switch 1x3kW", cs! "010F", cs! "0400", cs! "0109",
   [0x2400, 0x2420, 0x2425, 0x3460, 0x2470, 0x2472, 0x2485, 0x2486]⟩,
  -- 580; 66634-66952
  ⟨cs! "010f_0400_100a", "Fibargroup", "FGS211", "Relay Switch 1x3kW", cs! "010F", cs! "0400", cs! "100A",
   [0x2400, 0x2420, 0x2425, 0x3460, 0x2470, 0x2472, 0x2485, 0x2486]⟩,
  -- 582; 66953-67271
  ⟨cs! "010f_0400_300a", "Fibargroup", "FGS211", "Relay Switch 1x3kW", cs! "010F", cs! "0400", cs! "300A",
   [0x2400, 0x2420, 0x2425, 0x3460, 0x2470, 0x2472, 0x2485, 0x2486]⟩,
  -- 584; 67272-67590
  ⟨cs! "010f_0402_3002", "Fibargroup", "FGS211", "Relay Switch 1x3kW", cs! "010F", cs! "0402", cs! "3002",
   [0x2400, 0x2420, 0x2425, 0x3460, 0x2470, 0x2472, 0x2485, 0x2486]⟩,
  -- 586; 67591-67924
  ⟨cs! "010f_0401_100a", "Fibargroup", "FGS212", "Relay Switch 1x2.5kW", cs! "010F", cs! "0401", cs! "100A",
   [0x2400, 0x2420, 0x2425, 0x2427, 0x3460, 0x2470, 0x2472, 0x1484, 0x2485, 0x2486, 0x1487]⟩,
  -- 588; 67925-68258
  ⟨cs! "010f_0402_1002", "Fibargroup", "FGS212", "Relay Switch 1x2.5kW", cs! "010F", cs! "0402", cs! "1002",
   [0x2400, 0x2420, 0x2425, 0x2427, 0x3460, 0x2470, 0x2472, 0x1484, 0x2485, 0x2486, 0x1487]⟩,
  -- 590; 68259-68785
  ⟨cs! "010f_0403_1000", "Fibargroup", "FGS213", "Single Switch 2", cs! "010F", cs! "0403", cs! "1000",
   [0x2400, 0x2420, 0x2422, 0x2425, 0x5431, 0x4432, 0x2456, 0x2459, 0x245a, 0x245b, 0x245e, 0x3460, 0x2470, 0x6471, 0x2472, 0x2473, 0x3475, 0x247a, 0x3485, 0x3486, 0x448e]⟩,
  -- 592; 68786-69312
  ⟨cs! "010f_0403_3000", "Fibargroup", "FGS213", "Single Switch 2", cs! "010F", cs! "0403", cs! "3000",
   [0x2400, 0x2420, 0x2422, 0x2425, 0x5431, 0x4432, 0x2456, 0x2459, 0x245a, 0x245b, 0x245e, 0x3460, 0x2470, 0x6471, 0x2472, 0x2473, 0x3475, 0x247a, 0x3485, 0x3486, 0x448e]⟩,
  -- 594; 69313-69806
  ⟨cs! "010f_0200_0102", "Fibargroup", "FGS221", "Double Relay Switch 2x1.5kW", cs! "010F", cs! "0200", cs! "0102",
   [0x2400, 0x2420, 0x2525, 0x1527, 0x3560, 0x2570, 0x2572, 0x1573, 0x2585, 0x2586, 0x158e]⟩,
  -- 596; 69807-70300
  ⟨cs! "010f_0200_0103", "Fibargroup", "FGS221", "Double Relay Switch 2x1.5kW", cs! "010F", cs! "0200", cs! "0103",
   [0x2400, 0x2420, 0x2525, 0x1527, 0x3560, 0x2570, 0x2572, 0x1573, 0x2585, 0x2586, 0x158e]⟩,
  -- 598; 70301-70794
  ⟨cs! "010f_0200_0104", "Fibargroup", "FGS221", "Double Relay Switch 2x1.5kW", cs! "010F", cs! "0200", cs! "0104",
   [0x2400, 0x2420, 0x2525, 0x1527, 0x3560, 0x2570, 0x2572, 0x1573, 0x2585, 0x2586, 0x158e]⟩,
  -- 600; 70795-71288
  ⟨cs! "010f_0200_0105", "Fibargroup", "FGS221", "Double Relay Switch 2x1.5kW", cs! "010F", cs! "0200", cs! "0105",
   [0x2400, 0x2420, 0x2525, 0x1527, 0x3560, 0x2570, 0x2572, 0x1573, 0x2585, 0x2586, 0x158e]⟩,
  -- 602; 71289-71782
  ⟨cs! "010f_0200_0106", "Fibargroup", "FGS221", "Double Relay Switch 2x1.5kW", cs! "010F", cs! "0200", cs! "0106",
   [0x2400, 0x2420, 0x2525, 0x1527, 0x3560, 0x2570, 0x2572, 0x1573, 0x2585, 0x2586, 0x158e]⟩,
  -- 604; 71783-72276
  ⟨cs! "010f_0200_0107", "Fibargroup", "FGS221", "Double Relay Switch 2x1.5kW", cs! "010F", cs! "0200", cs! "0107",
   [0x2400, 0x2420, 0x2525, 0x1527, 0x3560, 0x2570, 0x2572, 0x1573, 0x2585, 0x2586, 0x158e]⟩,
  -- 606; 72277-72770
  ⟨cs! "010f_0200_0109", "Fibargroup", "FGS221", "Double Relay Switch 2x1.5kW", cs! "010F", cs! "0200", cs! "0109",
   [0x2400, 0x2420, 0x2525, 0x1527, 0x3560, 0x2570, 0x2572, 0x1573, 0x2585, 0x2586, 0x158e]⟩,
  -- 608; 72771-73264
  ⟨cs! "010f_0200_100a", "Fibargroup", "FGS221", "Double Relay Switch 2x1.5kW", cs! "010F", cs! "0200", cs! "100A",
   [0x2400, 0x2420, 0x2525, 0x1527, 0x3560, 0x2570, 0x2572, 0x1573, 0x2585, 0x2586, 0x158e]⟩,
  -- 610; 73265-73758
  ⟨cs! "010f_0200_300a", "Fibargroup", "FGS221", "Double Relay Switch 2x1.5kW", cs! "010F", cs! "0200", cs! "300A",
   [0x2400, 0x2420, 0x2525, 0x1527, 0x3560, 0x2570, 0x2572, 0x1573, 0x2585, 0x2586, 0x158e]⟩,
  -- 612; 73759-74252
  ⟨cs! "010f_0202_3002", "Fibargroup", "FGS221", "Double Relay Switch 2x1.5kW", cs! "010F", cs! "0202", cs! "3002",
   [0x2400, 0x2420, 0x2525, 0x1527, 0x3560, 0x2570, 0x2572, 0x1573, 0x2585, 0x2586, 0x158e]⟩,
  -- 614; 74253-74717
  ⟨cs! "010f_0202_1002", "Fibargroup", "FGS222", "Double Relay Switch 2x1.5kW", cs! "010F", cs! "0202", cs! "1002",
   [0x2400, 0x2420, 0x2425, 0x2427, 0x3460, 0x2470, 0x2472, 0x2485, 0x2486]⟩,
  -- 616; 74718-75182
  ⟨cs! "010f_0202_4002", "Fibargroup", "FGS222", "Double Relay Switch 2x1.5kW", cs! "010F", cs! "0202", cs! "4002",
   [0x2400, 0x2420, 0x2425, 0x2427, 0x3460, 0x2470, 0x2472, 0x2485, 0x2486]⟩,
  -- 618; 75183-75947
  ⟨cs! "010f_0203_1000", "Fibargroup", "FGS223", "Double Switch 2 ", cs! "010F", cs! "0203", cs! "1000",
   [0x2400, 0x2620, 0x2422, 0x2425, 0x4432, 0x2456, 0x245b, 0x3460, 0x2470, 0x2471, 0x2472, 0x2485, 0x2486]⟩,
  -- 620; 75948-76712
  ⟨cs! "010f_0203_2000", "Fibargroup", "FGS223", "Double Switch 2 ", cs! "010F", cs! "0203", cs! "2000",
   [0x2400, 0x2620, 0x2422, 0x2425, 0x4432, 0x2456, 0x245b, 0x3460, 0x2470, 0x2471, 0x2472, 0x2485, 0x2486]⟩,
  -- 622; 76713-77477
  ⟨cs! "010f_0203_3000", "Fibargroup", "FGS223", "Double Switch 2 ", cs! "010F", cs! "0203", cs! "3000",
   [0x2400, 0x2620, 0x2422, 0x2425, 0x4432, 0x2456, 0x245b, 0x3460, 0x2470, 0x2471, 0x2472, 0x2485, 0x2486]⟩,
  -- 624; 77478-77879
  ⟨cs! "010f_0c02_1002", "Fibargroup", "FGSD002", "Smoke Detector", cs! "010F", cs! "0C02", cs! "1002",
   [0x2400, 0x2420, 0x2522, 0x6531, 0x2556, 0x1559, 0x255a, 0x255e, 0x2570, 0x4571, 0x2572, 0x2573, 0x157a, 0x2580, 0x3584, 0x2585, 0x2586, 0x158b, 0x158e, 0x259c]⟩,
  -- 626; 77880-78229
  ⟨cs! "010f_0c00_1000", "Fibargroup", "FGSS001", "Smoke Sensor", cs! "010F", cs! "0C00", cs! "1000",
   [0x2400, 0x2420, 0x2431, 0x2456, 0x2470, 0x2472, 0x2480, 0x2484, 0x2485, 0x2486, 0x248b, 0x249c]⟩,
  -- 628; 78230-78579
  ⟨cs! "010f_0c00_3000", "Fibargroup", "FGSS001", "Smoke Sensor", cs! "010F", cs! "0C00", cs! "3000",
   [0x2400, 0x2420, 0x2431, 0x2456, 0x2470, 0x2472, 0x2480, 0x2484, 0x2485, 0x2486, 0x248b, 0x249c]⟩,
  -- 630; 78580-79052
  ⟨cs! "010f_0600_1000", "Fibargroup", "FGWP101", "Metered Wall Plug Switch", cs! "010F", cs! "0600", cs! "1000",
   [0x2400, 0x2420, 0x2425, 0x3431, 0x3432, 0x2470, 0x6571, 0x2472, 0x2485, 0x2486]⟩,
  -- 632; 79053-79534
  ⟨cs! "010f_0602_1001", "Fibargroup", "FGWP102", "Metered Wall Plug Switch", cs! "010F", cs! "0602", cs! "1001",
   [0x2400, 0x2420, 0x2422, 0x2425, 0x6431, 0x3432, 0x2456, 0x2470, 0x2471, 0x2472, 0x2485, 0x2486]⟩]

/-- database/devices.go 634-753 -/
def devRows5 : List DevRow := [
  -- 634; 79535-79625
  ⟨cs! "0207_0027_0100", "Forest Group Nederland B.V", "Forest Shuttle S/L, Forest Group NL", "Drapery hardware", cs! "0207", cs! "0027", cs! "0100",
   [0x2400, 0x2420, 0x2525, 0x4526, 0x2527, 0x2559, 0x255a, 0x255e, 0x2572, 0x2573, 0x257a, 0x3585, 0x3586]⟩,
  -- 636; 79626-79840
  ⟨cs! "0084_0451_010e", "FortrezZ LLC", "MIMOlite", "Digital or Analog Voltage input and/or Dry Contact\t\t\t\tRelay\t\t\t", cs! "0084", cs! "0451", cs! "010E",
   [0x2400, 0x2420, 0x2425, 0x2430, 0x2431, 0x2470, 0x2471, 0x2472, 0x2485, 0x2486]⟩,
  -- 638; 79841-80055
  ⟨cs! "0084_0453_010e", "FortrezZ LLC", "MIMOlite", "Digital or Analog Voltage input and/or Dry Contact\t\t\t\tRelay\t\t\t", cs! "0084", cs! "0453", cs! "010E",
   [0x2400, 0x2420, 0x2425, 0x2430, 0x2431, 0x2470, 0x2471, 0x2472, 0x2485, 0x2486]⟩,
  -- 640; 80056-80270
  ⟨cs! "0084_0453_010f", "FortrezZ LLC", "MIMOlite", "Digital or Analog Voltage input and/or Dry Contact\t\t\t\tRelay\t\t\t", cs! "0084", cs! "0453", cs! "010F",
   [0x2400, 0x2420, 0x2425, 0x2430, 0x2431, 0x2470, 0x2471, 0x2472, 0x2485, 0x2486]⟩,
  -- 642; 80271-80485
  ⟨cs! "0084_0453_0110", "FortrezZ LLC", "MIMOlite", "Digital or Analog Voltage input and/or Dry Contact\t\t\t\tRelay\t\t\t", cs! "0084", cs! "0453", cs! "0110",
   [0x2400, 0x2420, 0x2425, 0x2430, 0x2431, 0x2470, 0x2471, 0x2472, 0x2485, 0x2486]⟩,
  -- 644; 80486-80700
  ⟨cs! "0084_0453_0111", "FortrezZ LLC", "MIMOlite", "Digital or Analog Voltage input and/or Dry Contact\t\t\t\tRelay\t\t\t", cs! "0084", cs! "0453", cs! "0111",
   [0x2400, 0x2420, 0x2425, 0x2430, 0x2431, 0x2470, 0x2471, 0x2472, 0x2485, 0x2486]⟩,
  -- 646; 80701-80772
  ⟨cs! "0084_0311_010b", "FortrezZ LLC", "SSA1/SSA2", "Siren and Strobe Alarm", cs! "0084", cs! "0311", cs! "010B",
   [0x2400, 0x2420, 0x2522, 0x2526, 0x2570, 0x3571, 0x2572, 0x2586]⟩,
  -- 648; 80773-80844
  ⟨cs! "0084_0313_0108", "FortrezZ LLC", "SSA1/SSA2", "Siren and Strobe Alarm", cs! "0084", cs! "0313", cs! "0108",
   [0x2400, 0x2420, 0x2522, 0x2526, 0x2570, 0x3571, 0x2572, 0x2586]⟩,
  -- 650; 80845-80916
  ⟨cs! "0084_0313_010b", "FortrezZ LLC", "SSA1/SSA2", "Siren and Strobe Alarm", cs! "0084", cs! "0313", cs! "010B",
   [0x2400, 0x2420, 0x2522, 0x2526, 0x2570, 0x3571, 0x2572, 0x2586]⟩,
  -- 652; 80917-80998
  ⟨cs! "0084_0213_0215", "FortrezZ LLC", "WV-01", "Wireless Z-Wave Water Valve", cs! "0084", cs! "0213", cs! "0215",
   [0x2400, 0x2420, 0x2422, 0x2425, 0x2470, 0x2471, 0x2472, 0x2486]⟩,
  -- 654; 80999-81085
  ⟨cs! "0084_0061_010c", "FortrezZ LLC", "WWA-02", "Wireless Water and Temperature Alarm", cs! "0084", cs! "0061", cs! "010C",
   [0x2400, 0x2420, 0x2431, 0x2470, 0x2471, 0x2472, 0x2480, 0x3484, 0x2485, 0x2486]⟩,
  -- 656; 81086-81172
  ⟨cs! "0084_0063_010c", "FortrezZ LLC", "WWA-02", "Wireless Water and Temperature Alarm", cs! "0084", cs! "0063", cs! "010C",
   [0x2400, 0x2420, 0x2431, 0x2470, 0x2471, 0x2472, 0x2480, 0x3484, 0x2485, 0x2486]⟩,
  -- 658; 81173-81278
  ⟨cs! "0063_5044_3031", "Jasco Products", "12718", "Smart Dimmer", cs! "0063", cs! "5044", cs! "3031",
   [0x2400, 0x2420, 0x2526, 0x2527, 0x2570, 0x2572, 0x2573, 0x2577, 0x2586]⟩,
  -- 660; 81279-81361
  ⟨cs! "0063_4952_3033", "Jasco Products", "12727", "GE 12727 Z-Wave Wireless Lighting Control Smart Toggle Switch", cs! "0063", cs! "4952", cs! "3033",
   [0x2400, 0x2420, 0x2425, 0x2427, 0x2470, 0x2472, 0x2477, 0x2486]⟩,
  -- 662; 81362-81511
  ⟨cs! "0063_4944_3033", "Jasco Products", "12729", "In-Wall Smart Dimmer", cs! "0063", cs! "4944", cs! "3033",
   [0x2400, 0x2420, 0x2526, 0x2527, 0x2570, 0x2572, 0x2573, 0x2577, 0x2586]⟩,
  -- 664; 81512-81602
  ⟨cs! "0063_4c42_3031", "Jasco Products", "35931", "Enbrighten 60W Dimmable Light Bulb", cs! "0063", cs! "4C42", cs! "3031",
   [0x2400, 0x2420, 0x2526, 0x2527, 0x2559, 0x255a, 0x255e, 0x2570, 0x2572, 0x2573, 0x257a, 0x3585, 0x3586]⟩,
  -- 666; 81603-81686
  ⟨cs! "0063_5052_3031", "Jasco Products", "45603", "Fluorescent Light & Appliance Module", cs! "0063", cs! "5052", cs! "3031",
   [0x2400, 0x2420, 0x2425, 0x2472, 0x2475, 0x2486]⟩,
  -- 668; 81687-81770
  ⟨cs! "0063_5250_3030", "Jasco Products", "45603", "Fluorescent Light & Appliance Module", cs! "0063", cs! "5250", cs! "3030",
   [0x2400, 0x2420, 0x2425, 0x2472, 0x2475, 0x2486]⟩,
  -- 670; 81771-81837
  ⟨cs! "0063_5250_3130", "Jasco Products", "45604", "Outdoor Lighting Control Module", cs! "0063", cs! "5250", cs! "3130",
   [0x2400, 0x2420, 0x2525, 0x2527, 0x2572, 0x2573, 0x2575, 0x2577, 0x2586]⟩,
  -- 672; 81838-81904
  ⟨cs! "0063_4f50_3031", "Jasco Products", "45604", "Outdoor Lighting Control Module", cs! "0063", cs! "4F50", cs! "3031",
   [0x2400, 0x2420, 0x2525, 0x2527, 0x2572, 0x2573, 0x2575, 0x2577, 0x2586]⟩,
  -- 674; 81905-82016
  ⟨cs! "0063_5252_3530", "Jasco Products", "45605", "Duplex receptacle", cs! "0063", cs! "5252", cs! "3530",
   [0x2400, 0x2420, 0x2525, 0x2527, 0x2570, 0x2572, 0x2573, 0x2575, 0x2577, 0x2586]⟩,
  -- 676; 82017-82188
  ⟨cs! "0063_4457_3230", "Jasco Products", "45606", "2-Way Dimmer Switch", cs! "0063", cs! "4457", cs! "3230",
   [0x2400, 0x2420, 0x2426, 0x2427, 0x2470, 0x2472, 0x2486]⟩,
  -- 678; 82189-82371
  ⟨cs! "0063_4457_3033", "Jasco Products", "45607", "2-Way Dimmer Switch", cs! "0063", cs! "4457", cs! "3033",
   [0x2400, 0x2420, 0x2526, 0x2527, 0x2570, 0x2572, 0x2573, 0x2586]⟩,
  -- 680; 82372-82475
  ⟨cs! "0063_5257_3533", "Jasco Products", "45609", "On/Off Relay Switch", cs! "0063", cs! "5257", cs! "3533",
   [0x2400, 0x2420, 0x2425, 0x2427, 0x2470, 0x2472, 0x2477, 0x2486]⟩,
  -- 682; 82476-82579
  ⟨cs! "0063_6363_3533", "Jasco Products", "45609", "On/Off Relay Switch", cs! "0063", cs! "6363", cs! "3533",
   [0x2400, 0x2420, 0x2425, 0x2427, 0x2470, 0x2472, 0x2477, 0x2486]⟩,
  -- 684; 82580-82751
  ⟨cs! "0063_4944_3032", "Jasco Products", "GE 12725", "In-Wall Dimmer", cs! "0063", cs! "4944", cs! "3032",
   [0x2400, 0x1420, 0x2426, 0x2427, 0x2470, 0x2472, 0x2486]⟩,
  -- 686; 82752-82899
  ⟨cs! "0063_4952_3036", "Jasco Products", "GE 14291 (ZW4005)", "In-Wall Paddle Switch", cs! "0063", cs! "4952", cs! "3036",
   [0x2400, 0x2420, 0x2525, 0x2527, 0x252b, 0x252c, 0x2556, 0x2559, 0x255a, 0x255e, 0x2570, 0x2572, 0x2573, 0x257a, 0x3585, 0x3586]⟩,
  -- 688; 82900-83118
  ⟨cs! "0063_4944_3038", "Jasco Products", "GE 14294 (ZW3005)", "In-Wall Dimmer Switch", cs! "0063", cs! "4944", cs! "3038",
   [0x2400, 0x2420, 0x2526, 0x2527, 0x2556, 0x2559, 0x255a, 0x255e, 0x2570, 0x2572, 0x2573, 0x257a, 0x3585, 0x3586]⟩,
  -- 690; 83119-83266
  ⟨cs! "0063_4944_3135", "Jasco Products", "GE/Jasco 14321", "In-Wall Dimmer", cs! "0063", cs! "4944", cs! "3135",
   [0x2400, 0x2420, 0x3526, 0x2527, 0x252b, 0x252c, 0x2556, 0x2559, 0x255a, 0x255e, 0x2570, 0x2572, 0x2573, 0x257a, 0x3585, 0x3586]⟩,
  -- 692; 83267-83385
  ⟨cs! "0063_5052_3033", "Jasco Products", "GE Plug in Smart Switch", "GE Plug in Smart Switch Zwave Plus", cs! "0063", cs! "5052", cs! "3033",
   [0x2400, 0x2420, 0x2525, 0x2527, 0x2556, 0x2559, 0x255a, 0x255e, 0x2570, 0x2572, 0x2573, 0x257a, 0x3585, 0x3586]⟩,
  -- 694; 83386-83488
  ⟨cs! "0063_4953_3032", "Jasco Products", "Jasco Smart Door Sensor", "Hinge Pin Smart Door Sensor", cs! "0063", cs! "4953", cs! "3032",
   [0x2400, 0x2420, 0x3530, 0x2559, 0x255a, 0x255e, 0x2570, 0x5571, 0x2572, 0x2573, 0x257a, 0x2580, 0x3584, 0x3585, 0x3586]⟩,
  -- 696; 83489-83565
  ⟨cs! "0063_4952_3031", "Jasco Products", "ZW1001", "Smart Outlet", cs! "0063", cs! "4952", cs! "3031",
   [0x2400, 0x2420, 0x2425, 0x2427, 0x2470, 0x2472, 0x2477, 0x2486]⟩,
  -- 698; 83566-83742
  ⟨cs! "0063_4944_3031", "Jasco Products", "ZW3003, GE 12724", "In-Wall Dimmer", cs! "0063", cs! "4944", cs! "3031",
   [0x2400, 0x2420, 0x2426, 0x2427, 0x2470, 0x2472, 0x2477, 0x2486]⟩,
  -- 700; 83743-83909
  ⟨cs! "0063_4450_3030", "Jasco Products", "ZW3101", "Lamp Module", cs! "0063", cs! "4450", cs! "3030",
   [0x2400, 0x2420, 0x2526, 0x2527, 0x2570, 0x2572, 0x2573, 0x2577, 0x2586]⟩,
  -- 702; 83910-83998
  ⟨cs! "0063_4944_3034", "Jasco Products", "ZW4002", "In-Wall Smart Fan Control", cs! "0063", cs! "4944", cs! "3034",
   [0x2400, 0x2420, 0x2426, 0x2427, 0x2470, 0x2472, 0x2486]⟩,
  -- 704; 83999-84087
  ⟨cs! "0063_4944_3131", "Jasco Products", "ZW4002", "In-Wall Smart Fan Control", cs! "0063", cs! "4944", cs! "3131",
   [0x2400, 0x2420, 0x2426, 0x2427, 0x2470, 0x2472, 0x2486]⟩,
  -- 706; 84088-84181
  ⟨cs! "0063_4952_3032", "Jasco Products", "ZW4005, 12722", "On/Off Relay Switch", cs! "0063", cs! "4952", cs! "3032",
   [0x2400, 0x2420, 0x2425, 0x2427, 0x2470, 0x2472, 0x2477, 0x2486]⟩,
  -- 708; 84182-84248
  ⟨cs! "0063_6363_3030", "Jasco Products", "ZW4101", "Fluorescent Light & Appliance Module", cs! "0063", cs! "6363", cs! "3030",
   [0x2400, 0x2420, 0x2525, 0x2527, 0x2572, 0x2573, 0x2575, 0x2577, 0x2586]⟩,
  -- 710; 84249-84391
  ⟨cs! "0063_4953_3133", "Jasco Products", "ZW6302", "Portable Smart Motion Sensor", cs! "0063", cs! "4953", cs! "3133",
   [0x2400, 0x2420, 0x3430, 0x2470, 0x2471, 0x2472, 0x2480, 0x3484, 0x2485, 0x2486]⟩,
  -- 712; 84392-84461
  ⟨cs! "026e_4353_5a31", "Graber", "CSZ1", "Cellular Shade Radio Z-Wave", cs! "026E", cs! "4353", cs! "5A31",
   [0x2425, 0x4426, 0x2459, 0x245a, 0x245e, 0x2472, 0x2473, 0x247a, 0x2480, 0x3485, 0x3486]⟩,
  -- 714; 84462-84516
  ⟨cs! "026e_5253_5a31", "Graber", "RSZ1", "Somfy Motorized Shade", cs! "026E", cs! "5253", cs! "5A31",
   [0x2400, 0x2420, 0x2425, 0x4426, 0x2472, 0x2480, 0x2485, 0x2486]⟩,
  -- 716; 84517-84720
  ⟨cs! "0099_0002_0002", "GreenWave Reality Inc.", "GWPN1", "Single-socket PowerNode", cs! "0099", cs! "0002", cs! "0002",
   [0x2400, 0x2420, 0x2425, 0x1427, 0x3432, 0x2456, 0x3460, 0x2470, 0x2471, 0x2472, 0x2575, 0x2485, 0x2486, 0x1587]⟩,
  -- 718; 84721-84912
  ⟨cs! "0099_0003_0003", "GreenWave Reality Inc.", "GWPN5", "Multi-socket PowerNode (5-plug)", cs! "0099", cs! "0003", cs! "0003",
   [0x2400, 0x2420, 0x2425, 0x1427, 0x3432, 0x2456, 0x3460, 0x2470, 0x2471, 0x2472, 0x2485, 0x2486]⟩,
  -- 720; 84913-85104
  ⟨cs! "0099_0003_0004", "GreenWave Reality Inc.", "GWPN6", "Multi-socket PowerNode (6-plug)", cs! "0099", cs! "0003", cs! "0004",
   [0x2400, 0x2420, 0x2425, 0x1427, 0x3432, 0x2456, 0x3460, 0x2470, 0x2471, 0x2472, 0x2485, 0x2486]⟩,
  -- 722; 85105-85328
  ⟨cs! "0208_0101_0005", "Hank", "HKZW-SO01", "Smart Plug and Energy Meter with two USB ports", cs! "0208", cs! "0101", cs! "0005",
   [0x2400, 0x2420, 0x2525, 0x1426, 0x2527, 0x252b, 0x252c, 0x4532, 0x2559, 0x255a, 0x255e, 0x2570, 0x2572, 0x2573, 0x257a, 0x3585, 0x3586]⟩,
  -- 724; 85329-85425
  ⟨cs! "0208_0200_0009", "Hank", "SCN01", "Scene Controller", cs! "0208", cs! "0200", cs! "0009",
   [0x2400, 0x2420, 0x2559, 0x255a, 0x355b, 0x255e, 0x2570, 0x2572, 0x2573, 0x257a, 0x2580, 0x3584, 0x3585, 0x3586]⟩,
  -- 726; 85426-85678
  ⟨cs! "0208_0100_000a", "Hank", "SO05", "Smart Plug", cs! "0208", cs! "0100", cs! "000A",
   [0x2400, 0x2420, 0x2525, 0x2527, 0x252b, 0x252c, 0x4532, 0x2559, 0x255a, 0x255e, 0x2570, 0x2572, 0x2573, 0x257a, 0x3585, 0x3586]⟩,
  -- 728; 85679-85769
  ⟨cs! "0260_0168_0168", "Heiman Technology Co. Ltd", "HS1DS", "Door/Window Contact", cs! "0260", cs! "0168", cs! "0168",
   [0x2400, 0x2420, 0x3530, 0x2559, 0x255a, 0x255e, 0x5571, 0x2572, 0x2573, 0x2580, 0x3584, 0x3585, 0x3586]⟩,
  -- 730; 85770-85860
  ⟨cs! "0260_8002_1000", "Heiman Technology Co. Ltd", "HS1SA", "Smoke Detector", cs! "0260", cs! "8002", cs! "1000",
   [0x2400, 0x2420, 0x3530, 0x2559, 0x255a, 0x255e, 0x5571, 0x2572, 0x2573, 0x2580, 0x3584, 0x3585, 0x3586]⟩,
  -- 732; 85861-85945
  ⟨cs! "0260_8006_1000", "Heiman Technology Co. Ltd", "HS2SK-Z", "In-Wall Switch Module", cs! "0260", cs! "8006", cs! "1000",
   [0x2400, 0x2420, 0x2525, 0x2527, 0x4532, 0x2559, 0x255a, 0x255e, 0x2572, 0x2573, 0x3585, 0x3586]⟩,
  -- 734; 85946-86006
  ⟨cs! "0293_0004_0000", "Hogar Controls", "HTP-4S1-FB", "Four Touch Panel and Power Socket", cs! "0293", cs! "0004", cs! "0000",
   [0x2400, 0x2520, 0x2425, 0x2427, 0x2460, 0x2470, 0x2472, 0x2485, 0x2486]⟩,
  -- 736; 86007-86067
  ⟨cs! "0293_0003_0014", "Hogar Controls", "HTP-4S1-FB", "Four Touch Panel and Power Socket", cs! "0293", cs! "0003", cs! "0014",
   [0x2400, 0x2520, 0x2425, 0x2427, 0x2460, 0x2470, 0x2472, 0x2485, 0x2486]⟩,
  -- 738; 86068-86206
  ⟨cs! "001e_0002_0002", "Express Controls", "EZMotion Express", "Wireless 3-in-1 Sensor", cs! "001E", cs! "0002", cs! "0002",
   [0x2400, 0x2420, 0x6531, 0x2570, 0x2572, 0x2580, 0x3584, 0x2585, 0x2586]⟩,
  -- 740; 86207-86345
  ⟨cs! "001e_0002_0001", "Express Controls", "EZMotion Express", "Wireless 3-in-1 Sensor", cs! "001E", cs! "0002", cs! "0001",
   [0x2400, 0x2420, 0x6531, 0x2570, 0x2572, 0x2580, 0x3584, 0x2585, 0x2586]⟩,
  -- 742; 86346-86465
  ⟨cs! "001e_0004_0001", "Express Controls", "EZMultiPli", "Multi Sensor", cs! "001E", cs! "0004", cs! "0001",
   [0x2400, 0x2420, 0x6431, 0x2433, 0x2470, 0x2471, 0x2472, 0x2477, 0x2485, 0x2486]⟩,
  -- 744; 86466-86627
  ⟨cs! "000c_4447_3034", "HomeSeer Technologies", "HS-WD100+", "Scene Capable Wall Dimmer Switch", cs! "000C", cs! "4447", cs! "3034",
   [0x2400, 0x2520, 0x2526, 0x2527, 0x242b, 0x2559, 0x255a, 0x245b, 0x245e, 0x2570, 0x3572, 0x2573, 0x357a, 0x3585, 0x3586]⟩,
  -- 746; 86628-86772
  ⟨cs! "000c_4447_3033", "HomeSeer Technologies", "HS-WS100+", "Scene Capable Wall Switch", cs! "000C", cs! "4447", cs! "3033",
   [0x2400, 0x2520, 0x2525, 0x2527, 0x242b, 0x242c, 0x2559, 0x255a, 0x245b, 0x245e, 0x2570, 0x2572, 0x2573, 0x257a, 0x2585, 0x2586]⟩,
  -- 748; 86773-86858
  ⟨cs! "0039_0011_0001", "Honeywell", "TH8320ZW", "VisionPRO Z-Wave Touchscreen Programmable\r\n\t\t\t\tThermostat\r\n\t\t\t", cs! "0039", cs! "0011", cs! "0001",
   [0x2400, 0x2520, 0x2527, 0x4531, 0x3540, 0x2542, 0x3543, 0x3544, 0x2545, 0x2572, 0x2585, 0x2586]⟩,
  -- 750; 86859-86903
  ⟨cs! "0059_0003_0001", "Horstmann Controls Limited", "ASR-ZW", "Thermostat Receiver", cs! "0059", cs! "0003", cs! "0001",
   [0x2400, 0x2420, 0x2425, 0x2440, 0x2472, 0x2486]⟩,
  -- 752; 86904-87023
  ⟨cs! "0059_0001_0003", "Horstmann Controls Limited", "HRT4-ZW", "Battery Powered Wall Thermostat", cs! "0059", cs! "0001", cs! "0003",
   [0x2400, 0x2420, 0x1425, 0x2431, 0x1440, 0x2443, 0x2470, 0x2472, 0x2480, 0x3484, 0x2485, 0x2486]⟩]

/-- database/devices.go 754-873 -/
def devRows6 : List DevRow := [
  -- 754; 87024-87174
  ⟨cs! "0059_0004_0001", "Horstmann Controls Limited", "SCSC-17", "7 Day Room Thermostat", cs! "0059", cs! "0004", cs! "0001",
   [0x2400, 0x2420, 0x1525, 0x3531, 0x1440, 0x2542, 0x2543, 0x1553, 0x2570, 0x2572, 0x2580, 0x3584, 0x2585, 0x2586, 0x148a]⟩,
  -- 756; 87175-87239
  ⟨cs! "0059_000d_0002", "Horstmann Controls Limited", "SES 302", "Temperature sensor", cs! "0059", cs! "000D", cs! "0002",
   [0x2400, 0x2420, 0x6431, 0x3460, 0x2470, 0x2472, 0x2480, 0x3484, 0x2485, 0x2486]⟩,
  -- 758; 87240-87349
  ⟨cs! "0059_0010_0001", "Horstmann Controls Limited", "SIR-321", "RF Countdown Timer", cs! "0059", cs! "0010", cs! "0001",
   [0x2400, 0x2420, 0x2425, 0x2431, 0x2470, 0x2472, 0x2485, 0x2486]⟩,
  -- 760; 87350-87459
  ⟨cs! "0059_0010_0002", "Horstmann Controls Limited", "SIR-321", "RF Countdown Timer", cs! "0059", cs! "0010", cs! "0002",
   [0x2400, 0x2420, 0x2425, 0x2431, 0x2470, 0x2472, 0x2485, 0x2486]⟩,
  -- 762; 87460-87544
  ⟨cs! "0059_0001_0004", "Horstmann Controls Limited", "SRT323", "Secure Z-Wave Room Thermostat", cs! "0059", cs! "0001", cs! "0004",
   [0x2400, 0x2420, 0x2531, 0x2540, 0x2542, 0x2543, 0x2570, 0x2572, 0x2580, 0x3584, 0x2585, 0x2586]⟩,
  -- 764; 87545-87594
  ⟨cs! "0059_0003_0002", "Horstmann Controls Limited", "SSR-302", "Two Channel Boiler Actuator", cs! "0059", cs! "0003", cs! "0002",
   [0x2400, 0x2420, 0x2425, 0x2440, 0x3460, 0x2472, 0x2486]⟩,
  -- 766; 87595-87756
  ⟨cs! "0059_000f_0001", "Horstmann Controls Limited", "SWM301", "Z-Wave Module for Water Meter", cs! "0059", cs! "000F", cs! "0001",
   [0x2400, 0x2420, 0x2531, 0x2532, 0x2556, 0x2570, 0x2572, 0x2580, 0x3584, 0x2585, 0x2586, 0x259c]⟩,
  -- 768; 87757-87891
  ⟨cs! "0230_0003_0001", "Alphonsus Tech", "IDL-101", "Z-Wave Lock", cs! "0230", cs! "0003", cs! "0001",
   [0x2400, 0x2259, 0x255a, 0x355e, 0x3262, 0x2263, 0x2570, 0x5471, 0x3572, 0x2573, 0x327a, 0x2580, 0x3285, 0x3286, 0x2598]⟩,
  -- 770; 87892-87964
  ⟨cs! "011f_0001_0002", "Ingersoll Rand (was Ecolink)", "DWZWAVE1", "Z-Wave Door/Window Sensor", cs! "011F", cs! "0001", cs! "0002",
   [0x2400, 0x2420, 0x2530, 0x2570, 0x3571, 0x2572, 0x2580, 0x3584, 0x3585, 0x2586]⟩,
  -- 772; 87965-88186
  ⟨cs! "0077_0011_0001", "INNOVUS", "00110001", "RAone SmartDimmer", cs! "0077", cs! "0011", cs! "0001",
   [0x1400, 0x2420, 0x2026, 0x2427, 0x2428, 0x2431, 0x3432, 0x2470, 0x2472, 0x1473, 0x2475, 0x2477, 0x2485]⟩,
  -- 774; 88187-88305
  ⟨cs! "0077_0010_0001", "INNOVUS", "SmartPower", "RAone SmartPower", cs! "0077", cs! "0010", cs! "0001",
   [0x2400, 0x2420, 0x2525, 0x2527, 0x2528, 0x3531, 0x2532, 0x2572, 0x2573, 0x2575, 0x2577, 0x2585, 0x2586]⟩,
  -- 776; 88306-88372
  ⟨cs! "0005_4341_0600", "Intermatic", "CA3500", "15 Amp Split-Duplex Receptacle", cs! "0005", cs! "4341", cs! "0600",
   [0x2400, 0x2420, 0x2526, 0x2527, 0x2572, 0x2573, 0x2585, 0x2586, 0x1591]⟩,
  -- 778; 88373-88439
  ⟨cs! "0005_4341_3750", "Intermatic", "CA3750", "Contactor/Switch", cs! "0005", cs! "4341", cs! "3750",
   [0x2400, 0x2420, 0x2525, 0x2527, 0x2560, 0x2572, 0x2573, 0x2586, 0x1591]⟩,
  -- 780; 88440-88506
  ⟨cs! "0005_4341_8900", "Intermatic", "CA8900", "Z-Wave Thermostat", cs! "0005", cs! "4341", cs! "8900",
   [0x2400, 0x2420, 0x2531, 0x2540, 0x2542, 0x2543, 0x2572, 0x2586, 0x2587]⟩,
  -- 782; 88507-88557
  ⟨cs! "0005_0001_0003", "Intermatic", "HA-01C", "In-Wall Dual Receptacle", cs! "0005", cs! "0001", cs! "0003",
   [0x2500, 0x2520, 0x2525, 0x2527, 0x2572, 0x2586]⟩,
  -- 784; 88558-88607
  ⟨cs! "0005_0002_0003", "Intermatic", "HA02", "Appliance Module", cs! "0005", cs! "0002", cs! "0003",
   [0x2400, 0x2520, 0x2525, 0x2527, 0x2572, 0x2586]⟩,
  -- 786; 88608-88657
  ⟨cs! "0005_0003_0003", "Intermatic", "HA03", "Lamp Module", cs! "0005", cs! "0003", cs! "0003",
   [0x2400, 0x2520, 0x2526, 0x2527, 0x2572, 0x2586]⟩,
  -- 788; 88658-88707
  ⟨cs! "0005_0004_0003", "Intermatic", "HA04", "Outdoor Module", cs! "0005", cs! "0004", cs! "0003",
   [0x2400, 0x2520, 0x2525, 0x2527, 0x2572, 0x2586]⟩,
  -- 790; 88708-88756
  ⟨cs! "0005_0005_0003", "Intermatic", "HA05", "Screw in lamp module", cs! "0005", cs! "0005", cs! "0003",
   [0x2400, 0x2420, 0x2525, 0x2527, 0x2572, 0x2586]⟩,
  -- 792; 88757-88817
  ⟨cs! "0005_4841_0020", "Intermatic", "HA-20", "Dimmer Switch", cs! "0005", cs! "4841", cs! "0020",
   [0x2400, 0x2420, 0x2526, 0x2527, 0x2572, 0x2573, 0x2585, 0x2586]⟩,
  -- 794; 88818-88884
  ⟨cs! "0005_4341_3000", "Intermatic", "CA3000", "Wall Switch", cs! "0005", cs! "4341", cs! "3000",
   [0x2400, 0x2420, 0x2525, 0x2527, 0x2572, 0x2573, 0x2585, 0x2586, 0x1591]⟩,
  -- 796; 88885-88975
  ⟨cs! "0214_0002_0002", "Kaipule Technology Co., Ltd.", "ES61", "Smoke Sensor", cs! "0214", cs! "0002", cs! "0002",
   [0x2400, 0x2420, 0x1530, 0x2559, 0x255a, 0x255e, 0x5571, 0x2572, 0x2573, 0x2580, 0x3584, 0x3585, 0x3586]⟩,
  -- 798; 88976-89055
  ⟨cs! "0114_b005_3b60", "Kichler", "15DC200", "200W Design Pro LED Controller", cs! "0114", cs! "B005", cs! "3B60",
   [0x2400, 0x2520, 0x2525, 0x2527, 0x3560, 0x2570, 0x2572, 0x2586, 0x258a, 0x258b, 0x158c]⟩,
  -- 800; 89056-89227
  ⟨cs! "0090_0001_0001", "Black & Decker", "914TRL", "Touchpad Electronic Deadbolt", cs! "0090", cs! "0001", cs! "0001",
   [0x2600, 0x2620, 0x124c, 0x124e, 0x2662, 0x2663, 0x2670, 0x2671, 0x2772, 0x2675, 0x2476, 0x2680, 0x2685, 0x2786, 0x128b, 0x2598]⟩,
  -- 802; 89228-89336
  ⟨cs! "001d_3401_0001", "Leviton", "DZ15S", "Scene Capable Push On/Off", cs! "001D", cs! "3401", cs! "0001",
   [0x2400, 0x2520, 0x2525, 0x2527, 0x252b, 0x252c, 0x2559, 0x255a, 0x255e, 0x2570, 0x2572, 0x2573, 0x257a, 0x1482, 0x3585, 0x3586]⟩,
  -- 804; 89337-89519
  ⟨cs! "001d_3201_0001", "Leviton", "DZ6HD", "600W Dimmer", cs! "001D", cs! "3201", cs! "0001",
   [0x2400, 0x2420, 0x4426, 0x2427, 0x242b, 0x242c, 0x2459, 0x245a, 0x245e, 0x2470, 0x2472, 0x2473, 0x247a, 0x1482, 0x3485, 0x3486]⟩,
  -- 806; 89520-89569
  ⟨cs! "001d_1b03_0334", "Leviton", "DZMX1-1LZ", "Scene Capable Push On/Off", cs! "001D", cs! "1B03", cs! "0334",
   [0x2400, 0x2420, 0x2426, 0x1427, 0x242b, 0x2472, 0x2486]⟩,
  -- 808; 89570-89762
  ⟨cs! "001d_1a02_0334", "Leviton", "DZPA1", "Plug-in Appliance Module", cs! "001D", cs! "1A02", cs! "0334",
   [0x2400, 0x2420, 0x2525, 0x2527, 0x252b, 0x2572, 0x2577, 0x2586]⟩,
  -- 810; 89763-89955
  ⟨cs! "001d_3601_0001", "Leviton", "DZPA1", "Plug-in Appliance Module", cs! "001D", cs! "3601", cs! "0001",
   [0x2400, 0x2420, 0x2525, 0x2527, 0x252b, 0x2572, 0x2577, 0x2586]⟩,
  -- 812; 89956-90059
  ⟨cs! "001d_3501_0001", "Leviton", "DZPD3-2", "Plug-In Dimmer", cs! "001D", cs! "3501", cs! "0001",
   [0x2400, 0x2520, 0x4526, 0x2527, 0x252b, 0x252c, 0x2559, 0x255a, 0x255e, 0x2570, 0x2572, 0x2573, 0x257a, 0x3585, 0x3586]⟩,
  -- 814; 90060-90138
  ⟨cs! "001d_1902_0334", "Leviton", "DZPD3", "Lamp Module", cs! "001D", cs! "1902", cs! "0334",
   [0x2400, 0x2420, 0x2526, 0x2527, 0x252b, 0x152c, 0x2572, 0x2573, 0x2577, 0x2586, 0x1591]⟩,
  -- 816; 90139-90217
  ⟨cs! "001d_1d04_0334", "Leviton", "DZR15", "Scene Capable Receptacle", cs! "001D", cs! "1D04", cs! "0334",
   [0x2400, 0x2420, 0x2525, 0x2527, 0x252b, 0x152c, 0x2572, 0x2573, 0x2577, 0x2586, 0x1591]⟩,
  -- 818; 90218-90277
  ⟨cs! "001d_1c02_0334", "Leviton", "DZS15", "Scene Capable Push On/Off", cs! "001D", cs! "1C02", cs! "0334",
   [0x2400, 0x2420, 0x1422, 0x2425, 0x2427, 0x242b, 0x2472, 0x2477, 0x2486]⟩,
  -- 820; 90278-90340
  ⟨cs! "001d_0201_0206", "Leviton", "RZP03", "Scene Capable Plug-In Lamp Dimming Module", cs! "001D", cs! "0201", cs! "0206",
   [0x2020, 0x2026, 0x2027, 0x202b, 0x202c, 0x2072, 0x2073, 0x2077, 0x2082, 0x2085, 0x2086, 0x2091]⟩,
  -- 822; 90341-90413
  ⟨cs! "001d_1102_0243", "Leviton", "VRCS2-MRX", "Vizia RF + 2-Button Scene Controller with Switches ", cs! "001D", cs! "1102", cs! "0243",
   [0x2400, 0x2420, 0x1425, 0x102b, 0x102c, 0x2472, 0x1473, 0x2477, 0x2482, 0x2485, 0x2486, 0x2491]⟩,
  -- 824; 90414-90498
  ⟨cs! "001d_0e01_0334", "Leviton", "VRE06", "Electronic Low Voltage Scene Capable Dimmer", cs! "001D", cs! "0E01", cs! "0334",
   [0x2400, 0x2420, 0x2526, 0x2527, 0x252b, 0x252c, 0x2572, 0x2573, 0x2577, 0x2585, 0x2586, 0x1591]⟩,
  -- 826; 90499-90588
  ⟨cs! "001d_1001_0334", "Leviton", "Leviton VRF01-1LZ", "Z‑Wave Quiet Fan Speed Control", cs! "001D", cs! "1001", cs! "0334",
   [0x2400, 0x2420, 0x1422, 0x2526, 0x2527, 0x252b, 0x252c, 0x2572, 0x2573, 0x2577, 0x2585, 0x2586, 0x1591]⟩,
  -- 828; 90589-90673
  ⟨cs! "001d_1001_0209", "Leviton", "VRF01", "Scene Capable Quiet Fan Speed Control", cs! "001D", cs! "1001", cs! "0209",
   [0x2400, 0x2420, 0x2526, 0x2527, 0x252b, 0x252c, 0x2572, 0x2573, 0x2577, 0x2585, 0x2586, 0x1591]⟩,
  -- 830; 90674-90758
  ⟨cs! "001d_0401_0209", "Leviton", "VRI06", "Incandescent Scene Capable Dimmer", cs! "001D", cs! "0401", cs! "0209",
   [0x2400, 0x2420, 0x2426, 0x2427, 0x242b, 0x242c, 0x2453, 0x2472, 0x2473, 0x2477, 0x2482, 0x2485, 0x2486, 0x2491]⟩,
  -- 832; 90759-90843
  ⟨cs! "001d_0401_0334", "Leviton", "VRI06", "Incandescent Scene Capable Dimmer", cs! "001D", cs! "0401", cs! "0334",
   [0x2400, 0x2420, 0x2426, 0x2427, 0x242b, 0x242c, 0x2453, 0x2472, 0x2473, 0x2477, 0x2482, 0x2485, 0x2486, 0x2491]⟩,
  -- 834; 90844-90933
  ⟨cs! "001d_0602_0334", "Leviton", "VRMX1-1LZ", "Scene Capable Push On/Off Dimmer", cs! "001D", cs! "0602", cs! "0334",
   [0x2400, 0x2420, 0x2526, 0x2527, 0x252b, 0x252c, 0x1430, 0x2572, 0x2573, 0x2577, 0x2585, 0x2586, 0x1591]⟩,
  -- 836; 90934-91018
  ⟨cs! "001d_0202_030b", "Leviton", "VRP03", "300W Scene Capable Plug-In Lamp Dimming Module", cs! "001D", cs! "0202", cs! "030B",
   [0x2400, 0x2420, 0x2426, 0x2427, 0x242b, 0x242c, 0x2472, 0x2473, 0x2477, 0x2482, 0x2485, 0x2486, 0x2491, 0x24ef]⟩,
  -- 838; 91019-91088
  ⟨cs! "001d_1805_0334", "Leviton", "VRPA1", "Vizia RF + Scene Capable Plug-in Module", cs! "001D", cs! "1805", cs! "0334",
   [0x2400, 0x2420, 0x2425, 0x2427, 0x242b, 0x242c, 0x2472, 0x2473, 0x2477, 0x2485, 0x2486]⟩,
  -- 840; 91089-91153
  ⟨cs! "001d_1706_0334", "Leviton", "VRPD3", "Scene Capable Plug-in Dimmer", cs! "001D", cs! "1706", cs! "0334",
   [0x2400, 0x2420, 0x1422, 0x2426, 0x1427, 0x242b, 0x1432, 0x2472, 0x2485, 0x2486]⟩,
  -- 842; 91154-91216
  ⟨cs! "001d_0f01_0209", "Leviton", "VRS05", "Scene Capable Switch", cs! "001D", cs! "0F01", cs! "0209",
   [0x2020, 0x2025, 0x2027, 0x202b, 0x202c, 0x2072, 0x2073, 0x2077, 0x2082, 0x2085, 0x2086, 0x2091]⟩,
  -- 844; 91217-91301
  ⟨cs! "001d_0301_0209", "Leviton", "VRS15", "Scene Capable Push On/Off", cs! "001D", cs! "0301", cs! "0209",
   [0x2400, 0x2420, 0x2525, 0x2527, 0x252b, 0x252c, 0x2572, 0x2573, 0x2577, 0x2585, 0x2586, 0x1591]⟩,
  -- 846; 91302-91386
  ⟨cs! "001d_0301_0334", "Leviton", "VRS15", "Scene Capable Push On/Off", cs! "001D", cs! "0301", cs! "0334",
   [0x2400, 0x2420, 0x2525, 0x2527, 0x252b, 0x252c, 0x2572, 0x2573, 0x2577, 0x2585, 0x2586, 0x1591]⟩,
  -- 848; 91387-91453
  ⟨cs! "014f_5246_3133", "Linear Corp", "FS20Z", "Isolated Contact Fixture Module", cs! "014F", cs! "5246", cs! "3133",
   [0x2400, 0x2420, 0x2425, 0x242b, 0x2470, 0x2472, 0x2486]⟩,
  -- 850; 91454-91533
  ⟨cs! "014f_4742_3030", "Linear Corp", "GB00Z", "Glass Break Detector", cs! "014F", cs! "4742", cs! "3030",
   [0x2400, 0x2520, 0x255a, 0x2572, 0x2580, 0x2582, 0x3584, 0x2585, 0x2586, 0x2587, 0x259c]⟩,
  -- 852; 91534-91646
  ⟨cs! "014f_4754_3038", "Linear Corp", "LB60Z-1", "Dimmable LED Light Bulb", cs! "014F", cs! "4754", cs! "3038",
   [0x2400, 0x2420, 0x2125, 0x2526, 0x2527, 0x1559, 0x255a, 0x255e, 0x2570, 0x2572, 0x2573, 0x157a, 0x2585, 0x2586]⟩,
  -- 854; 91647-91696
  ⟨cs! "014f_4744_3030", "Linear Corp", "NGD00Z-4", "Garage Door Controller", cs! "014F", cs! "4744", cs! "3030",
   [0x2400, 0x2420, 0x245a, 0x2266, 0x5271, 0x2472, 0x2486]⟩,
  -- 856; 91697-91746
  ⟨cs! "014f_4744_3530", "Linear Corp", "NGD00Z-4", "Garage Door Controller", cs! "014F", cs! "4744", cs! "3530",
   [0x2400, 0x2420, 0x245a, 0x2266, 0x5271, 0x2472, 0x2486]⟩,
  -- 858; 91747-91836
  ⟨cs! "014f_4450_3030", "Linear Corp", "PD300Z-2", "Plug-in Wall Dimmer", cs! "014F", cs! "4450", cs! "3030",
   [0x2400, 0x2420, 0x2526, 0x2527, 0x252b, 0x152c, 0x2570, 0x2572, 0x2573, 0x2586]⟩,
  -- 860; 91837-91932
  ⟨cs! "014f_5250_3030", "Linear Corp", "PS15Z", "Plug-In Appliance Module", cs! "014F", cs! "5250", cs! "3030",
   [0x2400, 0x2420, 0x2525, 0x2527, 0x252b, 0x252c, 0x2570, 0x2572, 0x2573, 0x2575, 0x2586]⟩,
  -- 862; 91933-92053
  ⟨cs! "014f_5442_5431", "Linear Corp", "TBZ48", "Thermostat", cs! "014F", cs! "5442", cs! "5431",
   [0x2400, 0x2420, 0x252b, 0x252c, 0x2531, 0x2540, 0x2542, 0x2543, 0x2544, 0x2545, 0x2570, 0x2572, 0x2573, 0x2580, 0x2581, 0x2585, 0x2586, 0x258f]⟩,
  -- 864; 92054-92146
  ⟨cs! "014f_2009_0903", "Linear Corp", "WA105DBZ-1", "Siren & Strobe", cs! "014F", cs! "2009", cs! "0903",
   [0x2400, 0x2420, 0x2525, 0x2570, 0x2572, 0x2586]⟩,
  -- 866; 92147-92244
  ⟨cs! "014f_2005_0503", "Linear Corp", "WA105DBZ", "Siren", cs! "014F", cs! "2005", cs! "0503",
   [0x2400, 0x2420, 0x2425, 0x2470, 0x2472, 0x2480, 0x2486]⟩,
  -- 868; 92245-92304
  ⟨cs! "014f_2001_0102", "Linear Corp", "WADWAZ-1", "Door/Windows Sensor", cs! "014F", cs! "2001", cs! "0102",
   [0x2400, 0x2420, 0x2430, 0x2471, 0x2472, 0x2480, 0x3484, 0x2485, 0x2486]⟩,
  -- 870; 92305-92385
  ⟨cs! "014f_2002_0203", "Linear Corp", "WAPIRZ-1", "PIR Motion Detector", cs! "014F", cs! "2002", cs! "0203",
   [0x2400, 0x2420, 0x2430, 0x5431, 0x2470, 0x2471, 0x2472, 0x2480, 0x3484, 0x2485, 0x2486]⟩,
  -- 872; 92386-92565
  ⟨cs! "014f_4457_3034", "Linear Corp", "WD500Z-1", "Wall Dimmer Switch", cs! "014F", cs! "4457", cs! "3034",
   [0x2400, 0x2420, 0x2526, 0x2527, 0x252b, 0x152c, 0x2570, 0x2572, 0x2573, 0x2586]⟩]

/-- database/devices.go 874-993 -/
def devRows7 : List DevRow := [
  -- 874; 92566-92661
  ⟨cs! "014f_5252_3530", "Linear Corp", "WO15Z", "Single Wall Outlet", cs! "014F", cs! "5252", cs! "3530",
   [0x2400, 0x2420, 0x2525, 0x2527, 0x252b, 0x152c, 0x2570, 0x2572, 0x2573, 0x2575, 0x2586]⟩,
  -- 876; 92662-92765
  ⟨cs! "014f_5257_3533", "Linear Corp", "WS15Z-1", "Wall Mounted Switch", cs! "014F", cs! "5257", cs! "3533",
   [0x2400, 0x2420, 0x1422, 0x2425, 0x1426, 0x2427, 0x242b, 0x2470, 0x2472, 0x1480, 0x2486]⟩,
  -- 878; 92766-93049
  ⟨cs! "014f_5457_3033", "Linear Corp", "WT00Z-1", "3-Way Wall Accessory Switch", cs! "014F", cs! "5457", cs! "3033",
   []⟩,
  -- 880; 93050-93832
  ⟨cs! "0234_0002_010a", "Logic Home Control", "ZHC5010", "FUGA Wall 4-way Switch with LED + Relay", cs! "0234", cs! "0002", cs! "010A",
   [0x2400, 0x2420, 0x2525, 0x4526, 0x2528, 0x2559, 0x255a, 0x355b, 0x255e, 0x3560, 0x2570, 0x2572, 0x2573, 0x257a, 0x3585, 0x3586, 0x2587, 0x458e]⟩,
  -- 882; 93833-94615
  ⟨cs! "0234_0003_010a", "Logic Home Control", "ZHC5010", "FUGA Wall 4-way Switch with LED + Relay", cs! "0234", cs! "0003", cs! "010A",
   [0x2400, 0x2420, 0x2525, 0x4526, 0x2528, 0x2559, 0x255a, 0x355b, 0x255e, 0x3560, 0x2570, 0x2572, 0x2573, 0x257a, 0x3585, 0x3586, 0x2587, 0x458e]⟩,
  -- 884; 94616-94630
  ⟨cs! "015f_0000_0000", "McoHome Technology Co., Ltd", "MH3700-HP", "Programmable Thermostat", cs! "015F", cs! "0000", cs! "0000",
   []⟩,
  -- 886; 94631-94691
  ⟨cs! "015f_0905_0201", "McoHome Technology Co., Ltd", "MH9-CO2-WD", "CO2 Monitor Air quality detector", cs! "015F", cs! "0905", cs! "0201",
   [0x6431, 0x2470, 0x5471, 0x2472, 0x2485, 0x2486, 0x249e]⟩,
  -- 888; 94692-94756
  ⟨cs! "015f_4121_1302", "McoHome Technology Co., Ltd", "MCO_TPS412", "Touch Panel Switch 2 Channel", cs! "015F", cs! "4121", cs! "1302",
   [0x2400, 0x2420, 0x2425, 0x2427, 0x3460, 0x2470, 0x2472, 0x3485, 0x2486, 0x348e]⟩,
  -- 890; 94757-94801
  ⟨cs! "015f_0a05_0100", "McoHome Technology Co., Ltd", "MH10-PM2.5-WA", "PM2.5 Monitor", cs! "015F", cs! "0A05", cs! "0100",
   [0x2400, 0x1420, 0x6431, 0x2472, 0x2485, 0x2486]⟩,
  -- 892; 94802-94846
  ⟨cs! "015f_0a05_0201", "McoHome Technology Co., Ltd", "MH10-PM2.5-WA", "PM2.5 Monitor", cs! "015F", cs! "0A05", cs! "0201",
   [0x2400, 0x1420, 0x6431, 0x2472, 0x2485, 0x2486]⟩,
  -- 894; 94847-94913
  ⟨cs! "015f_0702_3102", "McoHome Technology Co., Ltd", "MH7", "Water/Electrical Heating Thermostat", cs! "015F", cs! "0702", cs! "3102",
   [0x2400, 0x2420, 0x6531, 0x2540, 0x2542, 0x2543, 0x2572, 0x2585, 0x2586]⟩,
  -- 896; 94914-94980
  ⟨cs! "015f_0702_5102", "McoHome Technology Co., Ltd", "MH7", "Water/Electrical Heating Thermostat", cs! "015F", cs! "0702", cs! "5102",
   [0x2400, 0x2420, 0x6531, 0x2540, 0x2542, 0x2543, 0x2572, 0x2585, 0x2586]⟩,
  -- 898; 94981-95059
  ⟨cs! "015f_0801_3102", "McoHome Technology Co., Ltd", "MH8-FC", "Fan Coil Thermostat", cs! "015F", cs! "0801", cs! "3102",
   [0x2400, 0x2420, 0x6531, 0x2540, 0x2542, 0x2543, 0x2544, 0x2545, 0x2572, 0x2585, 0x2586]⟩,
  -- 900; 95060-95132
  ⟨cs! "015f_3102_0202", "McoHome Technology Co., Ltd", "MH-S312", "Two Way Switch", cs! "015F", cs! "3102", cs! "0202",
   [0x2400, 0x2420, 0x2525, 0x2527, 0x3560, 0x1570, 0x2572, 0x2585, 0x2586, 0x258e]⟩,
  -- 902; 95133-95205
  ⟨cs! "015f_3102_0204", "McoHome Technology Co., Ltd", "MH-S314", "Four Way Switch", cs! "015F", cs! "3102", cs! "0204",
   [0x2400, 0x2420, 0x2525, 0x2527, 0x3560, 0x1570, 0x2572, 0x2585, 0x2586, 0x258e]⟩,
  -- 904; 95206-95278
  ⟨cs! "015f_3141_1302", "McoHome Technology Co., Ltd", "MH-S314", "Four Way Switch", cs! "015F", cs! "3141", cs! "1302",
   [0x2400, 0x2420, 0x2525, 0x2527, 0x3560, 0x1570, 0x2572, 0x2585, 0x2586, 0x258e]⟩,
  -- 906; 95279-95328
  ⟨cs! "015f_4102_0201", "McoHome Technology Co., Ltd", "MH-S411", "Touch Panel Switch (Single)", cs! "015F", cs! "4102", cs! "0201",
   [0x2400, 0x2420, 0x2425, 0x2427, 0x2472, 0x2485, 0x2486]⟩,
  -- 908; 95329-95388
  ⟨cs! "015f_4102_0202", "McoHome Technology Co., Ltd", "MH-S412", "Touch Panel Switch (Dual)", cs! "015F", cs! "4102", cs! "0202",
   [0x2400, 0x2420, 0x2425, 0x2427, 0x3460, 0x2470, 0x2472, 0x2485, 0x2486]⟩,
  -- 910; 95389-95470
  ⟨cs! "015f_4111_1302", "McoHome Technology Co., Ltd", "TPS411", "Touch Panel Switch 1 Button", cs! "015F", cs! "4111", cs! "1302",
   [0x2400, 0x2420, 0x2425, 0x2427, 0x3460, 0x2470, 0x2472, 0x3485, 0x2486, 0x348e]⟩,
  -- 912; 95471-95550
  ⟨cs! "007a_0001_0002", "Merten", "5051xx", "Radio Push-button CONNECT, 1f", cs! "007A", cs! "0001", cs! "0002",
   []⟩,
  -- 914; 95551-95623
  ⟨cs! "007a_8001_8001", "Merten", "507001", "Switch Wall Insert 1 Gang", cs! "007A", cs! "8001", cs! "8001",
   [0x2400, 0x2420, 0x2525, 0x2527, 0x2528, 0x2570, 0x2572, 0x3575, 0x2585, 0x2586]⟩,
  -- 916; 95624-95688
  ⟨cs! "007a_8001_8002", "Merten", "507501", "Merten Connect  Flush-mounted switch", cs! "007A", cs! "8001", cs! "8002",
   [0x2400, 0x2420, 0x2425, 0x2427, 0x2428, 0x2470, 0x2472, 0x3475, 0x2485, 0x2486]⟩,
  -- 918; 95689-95740
  ⟨cs! "007a_8001_8003", "Merten", "507601", "Dual Pole Wall Switch", cs! "007A", cs! "8001", cs! "8003",
   [0x1025]⟩,
  -- 920; 95741-95830
  ⟨cs! "007a_4003_0002", "Merten", "507900", "Wall Dimmer Module - Flush Mounted ", cs! "007A", cs! "4003", cs! "0002",
   [0x2400, 0x2420, 0x2526, 0x2527, 0x2529, 0x2570, 0x2572, 0x3575, 0x2585, 0x2586, 0x258e]⟩,
  -- 922; 95831-95940
  ⟨cs! "007a_0002_0001", "Merten", "5082xx", "Battery Powered Wall Controller MOVE", cs! "007A", cs! "0002", cs! "0001",
   [0x2400, 0x2420, 0x2570, 0x2572, 0x2585, 0x2586, 0x258e]⟩,
  -- 924; 95941-96013
  ⟨cs! "007a_4005_0001", "Merten", "509519", "Merten Radio Argus 220 Connect Movement Detector", cs! "007A", cs! "4005", cs! "0001",
   [0x2400, 0x2420, 0x2525, 0x3560, 0x2570, 0x2572, 0x3575, 0x2585, 0x2586, 0x258e]⟩,
  -- 926; 96014-96165
  ⟨cs! "007a_4004_0001", "Merten", "50x5xx", "roller shutter push-button", cs! "007A", cs! "4004", cs! "0001",
   [0x2400, 0x2420, 0x2526, 0x2431, 0x2450, 0x3460, 0x2470, 0x2472, 0x3475, 0x2485, 0x2486, 0x249e]⟩,
  -- 928; 96166-96279
  ⟨cs! "0178_4442_3130", "Nexia Home Intelligence", "DB100Z", "Doorbell", cs! "0178", cs! "4442", cs! "3130",
   [0x2400, 0x2420, 0x1559, 0x255a, 0x255e, 0x2570, 0x4571, 0x2572, 0x2573, 0x157a, 0x2580, 0x3584, 0x2585, 0x2586]⟩,
  -- 930; 96280-96490
  ⟨cs! "0165_0001_0001", "ID-RF", "ASP-3-1", "Smart Plug", cs! "0165", cs! "0001", cs! "0001",
   [0x2400, 0x2420, 0x2525, 0x2527, 0x2559, 0x255a, 0x255e, 0x2570, 0x4571, 0x2572, 0x2573, 0x3575, 0x2585, 0x3586, 0x2587]⟩,
  -- 932; 96491-96761
  ⟨cs! "0165_0002_0001", "ID-RF", "CRC-3100", "Octon Remote Control", cs! "0165", cs! "0002", cs! "0001",
   [0x2400, 0x2420, 0x202b, 0x1559, 0x255a, 0x355b, 0x255e, 0x2570, 0x2572, 0x2573, 0x2580, 0x3584, 0x2585, 0x2586]⟩,
  -- 934; 96762-97000
  ⟨cs! "0165_0002_0003", "ID-RF", "CWS-3101", "Wall Switch", cs! "0165", cs! "0002", cs! "0003",
   [0x2400, 0x2420, 0x202b, 0x305b, 0x2470, 0x2472, 0x2480, 0x3484, 0x2485, 0x2486]⟩,
  -- 936; 97001-97610
  ⟨cs! "0165_0001_0003", "ID-RF", "MSP-3-1-X1", " Z-Wave Plus Micro Smart Plug ON/OFF", cs! "0165", cs! "0001", cs! "0003",
   [0x2400, 0x2420, 0x2525, 0x2527, 0x4532, 0x2559, 0x255a, 0x255e, 0x2570, 0x5571, 0x2572, 0x2573, 0x3575, 0x257a, 0x3585, 0x3586, 0x2587]⟩,
  -- 938; 97611-97877
  ⟨cs! "0165_0002_0002", "ID-RF", "Soft Remote", "Remote Control", cs! "0165", cs! "0002", cs! "0002",
   [0x2400, 0x2420, 0x2559, 0x155a, 0x255b, 0x255e, 0x2570, 0x2572, 0x2573, 0x2580, 0x3584, 0x2585, 0x2586]⟩,
  -- 940; 97878-98030
  ⟨cs! "0096_0010_0001", "NorthQ", "NQ-9121", "NorthQ Gas Meter", cs! "0096", cs! "0010", cs! "0001",
   []⟩,
  -- 942; 98031-98282
  ⟨cs! "0096_0001_0001", "NorthQ", "NQ-9021", "NorthQ Electrical Meter", cs! "0096", cs! "0001", cs! "0001",
   [0x2400, 0x2520, 0x3532, 0x153d, 0x2556, 0x2570, 0x2572, 0x157a, 0x2580, 0x2584, 0x2586, 0x158b]⟩,
  -- 944; 98283-98522
  ⟨cs! "0096_0001_0002", "NorthQ", "NQ-9022", "NorthQ Electrical Meter", cs! "0096", cs! "0001", cs! "0002",
   [0x2400, 0x2520, 0x3532, 0x253d, 0x2556, 0x2570, 0x2572, 0x257a, 0x2586, 0x258b]⟩,
  -- 946; 98523-98635
  ⟨cs! "013c_0006_001a", "Philio Technology Corp", "ZIP-PAB01", "Zipato Micromodule Energy Meter", cs! "013C", cs! "0006", cs! "001A",
   [0x4432, 0x2456, 0x2459, 0x245a, 0x245e, 0x3460, 0x2470, 0x2472, 0x2473, 0x247a, 0x3485, 0x3486, 0x448e]⟩,
  -- 948; 98636-98829
  ⟨cs! "013c_0005_0031", "Philio Technology Corp", "PAD02", "Dimmer Socket", cs! "013C", cs! "0005", cs! "0031",
   [0x2400, 0x2420, 0x3726, 0x272b, 0x272c, 0x2759, 0x275a, 0x275e, 0x2770, 0x2771, 0x2772, 0x2773, 0x277a, 0x3785, 0x3786, 0x2598]⟩,
  -- 950; 98830-99088
  ⟨cs! "013c_0001_000f", "Philio Technology Corp", "PAN03", "In Wall Micromodule Single Switch", cs! "013C", cs! "0001", cs! "000F",
   [0x2400, 0x2520, 0x2525, 0x2527, 0x4532, 0x2559, 0x255a, 0x255e, 0x2570, 0x2571, 0x2572, 0x2573, 0x3575, 0x257a, 0x3585, 0x3586, 0x1598]⟩,
  -- 952; 99089-99328
  ⟨cs! "013c_0001_0003", "Philio Technology Corp", "PAN04", "In Wall Dual Relay(1 Way) Switch Module 2x 1.5kW\t\t\t\twith power meter\t\t\t", cs! "013C", cs! "0001", cs! "0003",
   [0x2400, 0x2420, 0x2425, 0x2427, 0x242b, 0x4432, 0x3460, 0x2470, 0x2471, 0x2472, 0x2485, 0x2486]⟩,
  -- 954; 99329-99568
  ⟨cs! "013c_0001_0012", "Philio Technology Corp", "PAN04", "In Wall Dual Relay(1 Way) Switch Module 2x 1.5kW\t\t\t\twith power meter\t\t\t", cs! "013C", cs! "0001", cs! "0012",
   [0x2400, 0x2420, 0x2425, 0x2427, 0x242b, 0x4432, 0x3460, 0x2470, 0x2471, 0x2472, 0x2485, 0x2486]⟩,
  -- 956; 99569-99808
  ⟨cs! "013c_0001_0014", "Philio Technology Corp", "PAN04", "In Wall Dual Relay(1 Way) Switch Module 2x 1.5kW\t\t\t\twith power meter\t\t\t", cs! "013C", cs! "0001", cs! "0014",
   [0x2400, 0x2420, 0x2425, 0x2427, 0x242b, 0x4432, 0x3460, 0x2470, 0x2471, 0x2472, 0x2485, 0x2486]⟩,
  -- 958; 99809-99926
  ⟨cs! "013c_0001_0004", "Philio Technology Corp", "PAN06", "In Wall Dual Relay(1 Way) Switch Module 2x 1.5kW\t\t\t", cs! "013C", cs! "0001", cs! "0004",
   [0x2400, 0x2520, 0x2525, 0x2527, 0x3560, 0x2570, 0x2571, 0x2572, 0x2585, 0x2586]⟩,
  -- 960; 99927-100044
  ⟨cs! "013c_0001_0013", "Philio Technology Corp", "PAN06", "In Wall Dual Relay(1 Way) Switch Module 2x 1.5kW\t\t\t", cs! "013C", cs! "0001", cs! "0013",
   [0x2400, 0x2520, 0x2525, 0x2527, 0x3560, 0x2570, 0x2571, 0x2572, 0x2585, 0x2586]⟩,
  -- 962; 100045-100174
  ⟨cs! "013c_0001_0006", "Philio Technology Corp", "PAN08", "Relay Insert for Blind Control", cs! "013C", cs! "0001", cs! "0006",
   [0x2400, 0x2520, 0x2525, 0x4526, 0x252b, 0x252c, 0x4532, 0x2570, 0x2571, 0x2572, 0x2585, 0x2586]⟩,
  -- 964; 100175-100304
  ⟨cs! "013c_0001_0015", "Philio Technology Corp", "PAN08", "Relay Insert for Blind Control", cs! "013C", cs! "0001", cs! "0015",
   [0x2400, 0x2520, 0x2525, 0x4526, 0x252b, 0x252c, 0x4532, 0x2570, 0x2571, 0x2572, 0x2585, 0x2586]⟩,
  -- 966; 100305-100562
  ⟨cs! "013c_0001_0001", "Philio Technology Corp", "PAN11", "Smart Energy Plug In Switch", cs! "013C", cs! "0001", cs! "0001",
   [0x2400, 0x2520, 0x2525, 0x2527, 0x4532, 0x2559, 0x255a, 0x355e, 0x2570, 0x2571, 0x3572, 0x2573, 0x3575, 0x357a, 0x3585, 0x2486, 0x2598]⟩,
  -- 968; 100563-100820
  ⟨cs! "013c_0001_0011", "Philio Technology Corp", "PAN11", "Smart Energy Plug In Switch", cs! "013C", cs! "0001", cs! "0011",
   [0x2400, 0x2520, 0x2525, 0x2527, 0x4532, 0x2559, 0x255a, 0x355e, 0x2570, 0x2571, 0x3572, 0x2573, 0x3575, 0x357a, 0x3585, 0x2486, 0x2598]⟩,
  -- 970; 100821-101078
  ⟨cs! "013c_0001_0030", "Philio Technology Corp", "PAN11", "Smart Energy Plug In Switch", cs! "013C", cs! "0001", cs! "0030",
   [0x2400, 0x2520, 0x2525, 0x2527, 0x4532, 0x2559, 0x255a, 0x355e, 0x2570, 0x2571, 0x3572, 0x2573, 0x3575, 0x357a, 0x3585, 0x2486, 0x2598]⟩,
  -- 972; 101079-101286
  ⟨cs! "013c_0002_001f", "Philio Technology Corp", "PAT02", "Flood Multisensor (incl. humidty and temperature)", cs! "013C", cs! "0002", cs! "001F",
   [0x2400, 0x2420, 0x3430, 0x6431, 0x2470, 0x2471, 0x2472, 0x2480, 0x3484, 0x2485, 0x2486, 0x248f]⟩,
  -- 974; 101287-101495
  ⟨cs! "013c_0002_0020", "Philio Technology Corp", "PAT02-B", "Z-Wave room sensor", cs! "013C", cs! "0002", cs! "0020",
   [0x2400, 0x2420, 0x3530, 0x6531, 0x2559, 0x255a, 0x255e, 0x2570, 0x5571, 0x2572, 0x2573, 0x257a, 0x2580, 0x3584, 0x3585, 0x3586, 0x258f, 0x2598]⟩,
  -- 976; 101496-101693
  ⟨cs! "013c_0002_0021", "Philio Technology Corp", "PAT02-C", "Flood Sensor", cs! "013C", cs! "0002", cs! "0021",
   [0x2400, 0x2420, 0x3530, 0x2559, 0x255a, 0x255e, 0x2570, 0x4571, 0x2572, 0x2573, 0x257a, 0x2580, 0x3584, 0x2585, 0x2586, 0x258f, 0x2598]⟩,
  -- 978; 101694-101808
  ⟨cs! "013c_0004_000a", "Philio Technology Corp", "PSE02", "Siren", cs! "013C", cs! "0004", cs! "000A",
   [0x2400, 0x2420, 0x2425, 0x1559, 0x255a, 0x255e, 0x4071, 0x2572, 0x2573, 0x157a, 0x2586, 0x1598]⟩,
  -- 980; 101809-101994
  ⟨cs! "013c_0002_0002", "Philio Technology Corp", "PSM02", "Slim Multi-Sensor", cs! "013C", cs! "0002", cs! "0002",
   [0x2400, 0x2420, 0x3430, 0x6431, 0x2470, 0x2472, 0x2480, 0x3484, 0x2485, 0x2486]⟩,
  -- 982; 101995-102165
  ⟨cs! "013c_0009_0022", "Philio Technology Corp", "PSR04", "Smart Color Button", cs! "013C", cs! "0009", cs! "0022",
   [0x2400, 0x2520, 0x2559, 0x255a, 0x235b, 0x355e, 0x2370, 0x3572, 0x2573, 0x357a, 0x2380, 0x3384, 0x3385, 0x3586, 0x258f, 0x2598]⟩,
  -- 984; 102166-102439
  ⟨cs! "013c_0002_000c", "Philio Technology Corp", "PST02A", "Slim Multi-Sensor (PIR/Door/Temperature/Illumination)", cs! "013C", cs! "0002", cs! "000C",
   [0x2400, 0x2420, 0x3430, 0x6431, 0x1559, 0x155a, 0x155e, 0x2470, 0x2471, 0x2472, 0x1573, 0x2480, 0x3484, 0x2485, 0x2486, 0x248f]⟩,
  -- 986; 102440-102671
  ⟨cs! "013c_0002_000d", "Philio Technology Corp", "PST02B", "Slim Multi-Sensor (PIR/Temperature/Illumination)", cs! "013C", cs! "0002", cs! "000D",
   [0x2400, 0x2420, 0x3530, 0x6531, 0x2559, 0x255a, 0x255e, 0x2570, 0x4571, 0x2572, 0x2573, 0x257a, 0x2580, 0x3584, 0x2585, 0x2586, 0x258f, 0x2598]⟩,
  -- 988; 102672-102900
  ⟨cs! "013c_0002_000e", "Philio Technology Corp", "PST02C", "Slim Multi-Sensor (Door/Temperature/Illumination)", cs! "013C", cs! "0002", cs! "000E",
   [0x2400, 0x2420, 0x3430, 0x6431, 0x2470, 0x2471, 0x2472, 0x2480, 0x3484, 0x2485, 0x2486, 0x248f]⟩,
  -- 990; 102901-103270
  ⟨cs! "010e_0008_0002", "Poly-control", "BTZW125", "Danalock v2 circle", cs! "010E", cs! "0008", cs! "0002",
   [0x2400, 0x2220, 0x2422, 0x2259, 0x345e, 0x3362, 0x2270, 0x3772, 0x2473, 0x2680, 0x3285, 0x228a, 0x228b]⟩,
  -- 992; 103271-103413
  ⟨cs! "0154_0100_0201", "Popp & Co", "004001", "Smoke Detector and Siren", cs! "0154", cs! "0100", cs! "0201",
   [0x2400, 0x2420, 0x2425, 0x3430, 0x2470, 0x2471, 0x2472, 0x2480, 0x2485, 0x2486]⟩]

end Verif.Model.Tables
