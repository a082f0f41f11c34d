import Verif.Proofs.PathStep

/-!
Data for `Proofs/Path`, found by enumerating the signs of the differences that enter each step; what is needed of them is checked
there.
-/

namespace Verif.Path

/-- For a vector: where carries are seen to stop (step, working variable, bit), the relations used, and which of them add up to
each condition. -/
structure Cert where
  stops : List (Nat × Nat × Nat)
  rels : List Rel
  use : List (List Nat)

/-- I(43,0) -/
def cert0 : Cert := ⟨
  [(64, 62, 2), (63, 59, 2), (65, 65, 27)],
  [⟨46, [1501, 3967], true⟩,
   ⟨47, [1533, 3967], true⟩,
   ⟨43, [1380, 3967], true⟩,
   ⟨41, [1316, 3903], true⟩,
   ⟨44, [1437, 3903], true⟩,
   ⟨39, [1252, 3839], true⟩,
   ⟨42, [1373, 3839], true⟩,
   ⟨37, [1188, 3775], true⟩,
   ⟨40, [1309, 3775], true⟩,
   ⟨45, [3903, 3967], true⟩,
   ⟨43, [3839, 3903], true⟩,
   ⟨41, [3775, 3839], true⟩,
   ⟨61, [1953, 4545], false⟩,
   ⟨62, [1990, 4545], true⟩,
   ⟨59, [1893, 4448], true⟩,
   ⟨63, [2046, 4448], true⟩,
   ⟨58, [1856, 4448], false⟩],
  [[0, 1], [2, 0], [3, 4], [5, 6], [7, 8], [4, 9, 0], [5, 3, 10], [7, 5, 11], [12, 13], [14, 15], [16, 15]]⟩

/-- I(44,0) -/
def cert1 : Cert := ⟨
  [(65, 63, 2), (64, 60, 2)],
  [⟨47, [1533, 3999], true⟩,
   ⟨48, [1565, 3999], true⟩,
   ⟨44, [1412, 3999], true⟩,
   ⟨42, [1348, 3935], true⟩,
   ⟨45, [1469, 3935], true⟩,
   ⟨40, [1309, 3807], true⟩,
   ⟨41, [1341, 3807], true⟩,
   ⟨40, [1284, 3871], true⟩,
   ⟨43, [1405, 3871], true⟩,
   ⟨38, [1220, 3807], true⟩,
   ⟨46, [3935, 3999], true⟩,
   ⟨44, [3871, 3935], true⟩,
   ⟨42, [3807, 3871], true⟩,
   ⟨62, [1985, 4577], false⟩,
   ⟨63, [2022, 4577], true⟩,
   ⟨60, [1925, 4480], true⟩,
   ⟨64, [2078, 4480], true⟩,
   ⟨59, [1888, 4480], false⟩],
  [[0, 1], [2, 0], [3, 4], [5, 6], [7, 8], [9, 6], [4, 10, 0], [7, 3, 11], [9, 7, 12], [13, 14], [15, 16], [17, 16]]⟩

/-- I(45,0) -/
def cert2 : Cert := ⟨
  [(65, 61, 2), (64, 64, 27)],
  [⟨48, [1565, 4031], true⟩,
   ⟨49, [1597, 4031], true⟩,
   ⟨45, [1444, 4031], true⟩,
   ⟨43, [1380, 3967], true⟩,
   ⟨46, [1501, 3967], true⟩,
   ⟨41, [1316, 3903], true⟩,
   ⟨44, [1437, 3903], true⟩,
   ⟨41, [1341, 3839], true⟩,
   ⟨42, [1373, 3839], true⟩,
   ⟨39, [1252, 3839], true⟩,
   ⟨47, [3967, 4031], true⟩,
   ⟨45, [3903, 3967], true⟩,
   ⟨43, [3839, 3903], true⟩,
   ⟨35, [1124, 3711], true⟩,
   ⟨39, [1277, 3711], true⟩,
   ⟨63, [2017, 4609], false⟩,
   ⟨64, [2054, 4609], true⟩,
   ⟨60, [1920, 4512], false⟩,
   ⟨61, [1957, 4512], true⟩],
  [[0, 1], [2, 0], [3, 4], [5, 6], [7, 8], [9, 8], [4, 10, 0], [6, 11, 4], [9, 5, 12], [13, 14], [15, 16], [17, 18]]⟩

/-- I(46,0) -/
def cert3 : Cert := ⟨
  [(64, 62, 2), (65, 65, 27)],
  [⟨49, [1597, 4063], true⟩,
   ⟨50, [1629, 4063], true⟩,
   ⟨46, [1476, 4063], true⟩,
   ⟨44, [1412, 3999], true⟩,
   ⟨47, [1533, 3999], true⟩,
   ⟨42, [1348, 3935], true⟩,
   ⟨45, [1469, 3935], true⟩,
   ⟨42, [1373, 3871], true⟩,
   ⟨43, [1405, 3871], true⟩,
   ⟨40, [1284, 3871], true⟩,
   ⟨36, [1156, 3743], true⟩,
   ⟨40, [1309, 3743], true⟩,
   ⟨48, [3999, 4063], true⟩,
   ⟨46, [3935, 3999], true⟩,
   ⟨44, [3871, 3935], true⟩,
   ⟨61, [1952, 4544], false⟩,
   ⟨62, [1989, 4544], true⟩],
  [[0, 1], [2, 0], [3, 4], [5, 6], [7, 8], [9, 8], [10, 11], [4, 12, 0], [6, 13, 4], [9, 5, 14], [15, 16]]⟩

/-- I(46,2) -/
def cert4 : Cert := ⟨
  [(62, 62, 27), (50, 46, 2), (48, 44, 2), (46, 42, 2), (44, 40, 2), (40, 36, 2), (37, 33, 2), (36, 32, 2)],
  [⟨44, [1414, 3969], true⟩,
   ⟨45, [3969, 4033], false⟩,
   ⟨46, [1478, 4033], true⟩,
   ⟨39, [1249, 3841], false⟩,
   ⟨40, [1286, 3841], true⟩,
   ⟨61, [1954, 4546], false⟩,
   ⟨62, [1991, 4546], true⟩,
   ⟨47, [1505, 4033], true⟩,
   ⟨42, [1350, 3905], true⟩,
   ⟨43, [3905, 3969], false⟩,
   ⟨35, [1121, 3713], false⟩,
   ⟨36, [1158, 3713], true⟩,
   ⟨41, [3841, 3905], false⟩],
  [[0, 1, 2], [3, 4], [5, 6], [2, 7], [8, 9, 0], [10, 11], [4, 12, 8]]⟩

/-- I(47,0) -/
def cert5 : Cert := ⟨
  [(65, 63, 2)],
  [⟨47, [1508, 4095], true⟩,
   ⟨50, [1629, 4095], true⟩,
   ⟨45, [1444, 4031], true⟩,
   ⟨48, [1565, 4031], true⟩,
   ⟨43, [1380, 3967], true⟩,
   ⟨46, [1501, 3967], true⟩,
   ⟨43, [1405, 3903], true⟩,
   ⟨44, [1437, 3903], true⟩,
   ⟨41, [1316, 3903], true⟩,
   ⟨40, [1309, 3775], true⟩,
   ⟨41, [1341, 3775], true⟩,
   ⟨51, [1661, 4095], true⟩,
   ⟨37, [1188, 3775], true⟩,
   ⟨49, [4031, 4095], true⟩,
   ⟨47, [3967, 4031], true⟩,
   ⟨45, [3903, 3967], true⟩,
   ⟨62, [1984, 4576], false⟩,
   ⟨63, [2021, 4576], true⟩],
  [[0, 1], [2, 3], [4, 5], [6, 7], [8, 7], [9, 10], [1, 11], [12, 9], [3, 13, 1], [5, 14, 3], [7, 15, 5], [16, 17]]⟩

/-- I(47,2) -/
def cert6 : Cert := ⟨
  [(63, 63, 27), (51, 47, 2), (49, 45, 2), (47, 43, 2), (45, 41, 2), (41, 37, 2), (38, 34, 2), (37, 33, 2), (35, 31, 2)],
  [⟨45, [1446, 4001], true⟩,
   ⟨46, [4001, 4065], false⟩,
   ⟨47, [1510, 4065], true⟩,
   ⟨40, [1281, 3873], false⟩,
   ⟨41, [1318, 3873], true⟩,
   ⟨36, [1153, 3745], false⟩,
   ⟨37, [1190, 3745], true⟩,
   ⟨48, [1537, 4065], true⟩,
   ⟨43, [1382, 3937], true⟩,
   ⟨44, [3937, 4001], false⟩,
   ⟨62, [1986, 4578], false⟩,
   ⟨63, [2023, 4578], true⟩,
   ⟨42, [3873, 3937], false⟩],
  [[0, 1, 2], [3, 4], [5, 6], [2, 7], [8, 9, 0], [10, 11], [4, 12, 8]]⟩

/-- I(48,0) -/
def cert7 : Cert := ⟨
  [(64, 64, 27)],
  [⟨44, [1437, 3935], true⟩,
   ⟨45, [1469, 3935], true⟩,
   ⟨46, [1476, 4063], true⟩,
   ⟨49, [1597, 4063], true⟩,
   ⟨44, [1412, 3999], true⟩,
   ⟨47, [1533, 3999], true⟩,
   ⟨42, [1348, 3935], true⟩,
   ⟨40, [1309, 3807], true⟩,
   ⟨41, [1341, 3807], true⟩,
   ⟨48, [1540, 4127], true⟩,
   ⟨51, [1661, 4127], true⟩,
   ⟨42, [1373, 3807], true⟩,
   ⟨38, [1220, 3807], true⟩,
   ⟨52, [1693, 4127], true⟩,
   ⟨50, [4063, 4127], true⟩,
   ⟨48, [3999, 4063], true⟩,
   ⟨46, [3935, 3999], true⟩,
   ⟨35, [1124, 3711], true⟩,
   ⟨39, [1277, 3711], true⟩,
   ⟨63, [2016, 4608], false⟩,
   ⟨64, [2053, 4608], true⟩],
  [[0, 1], [2, 3], [4, 5], [6, 1], [7, 8], [9, 10], [8, 11], [12, 8], [10, 13], [3, 14, 10], [5, 15, 3], [1, 16, 5],
   [17, 18], [19, 20]]⟩

/-- I(48,2) -/
def cert8 : Cert := ⟨
  [(64, 64, 27), (52, 48, 2), (50, 46, 2), (48, 44, 2), (46, 42, 2), (42, 38, 2), (39, 35, 2), (38, 34, 2), (36, 32, 2), (35, 31, 2)],
  [⟨44, [1414, 3969], true⟩,
   ⟨45, [3969, 4033], false⟩,
   ⟨46, [1478, 4033], true⟩,
   ⟨41, [1313, 3905], false⟩,
   ⟨42, [1350, 3905], true⟩,
   ⟨47, [4033, 4097], false⟩,
   ⟨48, [1542, 4097], true⟩,
   ⟨43, [3905, 3969], false⟩,
   ⟨37, [1185, 3777], false⟩,
   ⟨38, [1222, 3777], true⟩,
   ⟨63, [2018, 4610], false⟩,
   ⟨64, [2055, 4610], true⟩,
   ⟨49, [1569, 4097], true⟩],
  [[0, 1, 2], [3, 4], [2, 5, 6], [4, 7, 0], [8, 9], [10, 11], [6, 12]]⟩

/-- I(49,0) -/
def cert9 : Cert := ⟨
  [(65, 65, 27)],
  [⟨47, [1508, 4095], true⟩,
   ⟨50, [1629, 4095], true⟩,
   ⟨45, [1444, 4031], true⟩,
   ⟨48, [1565, 4031], true⟩,
   ⟨45, [1469, 3967], true⟩,
   ⟨46, [1501, 3967], true⟩,
   ⟨43, [1380, 3967], true⟩,
   ⟨52, [1693, 4159], true⟩,
   ⟨53, [1725, 4159], true⟩,
   ⟨49, [1572, 4159], true⟩,
   ⟨42, [1373, 3839], true⟩,
   ⟨43, [1405, 3839], true⟩,
   ⟨41, [1341, 3839], true⟩,
   ⟨39, [1252, 3839], true⟩,
   ⟨36, [1156, 3743], true⟩,
   ⟨40, [1309, 3743], true⟩,
   ⟨51, [4095, 4159], true⟩,
   ⟨49, [4031, 4095], true⟩,
   ⟨47, [3967, 4031], true⟩],
  [[0, 1], [2, 3], [4, 5], [6, 5], [7, 8], [9, 7], [10, 11], [12, 10], [13, 10], [14, 15], [1, 16, 7], [3, 17, 1],
   [5, 18, 3]]⟩

/-- I(49,2) -/
def cert10 : Cert := ⟨
  [(65, 65, 27), (53, 49, 2), (51, 47, 2), (49, 45, 2), (47, 43, 2), (43, 39, 2), (40, 36, 2), (39, 35, 2), (37, 33, 2), (36, 32, 2)],
  [⟨45, [1446, 4001], true⟩,
   ⟨46, [4001, 4065], false⟩,
   ⟨47, [1510, 4065], true⟩,
   ⟨48, [4065, 4129], false⟩,
   ⟨49, [1574, 4129], true⟩,
   ⟨43, [1382, 3937], true⟩,
   ⟨44, [3937, 4001], false⟩,
   ⟨35, [1121, 3713], false⟩,
   ⟨36, [1158, 3713], true⟩,
   ⟨50, [1601, 4129], true⟩,
   ⟨42, [1345, 3937], false⟩,
   ⟨39, [1254, 3809], true⟩,
   ⟨40, [1281, 3809], true⟩,
   ⟨38, [1217, 3809], false⟩],
  [[0, 1, 2], [2, 3, 4], [5, 6, 0], [7, 8], [4, 9], [10, 6, 1, 3, 9], [11, 12], [13, 12]]⟩

/-- I(50,0) -/
def cert11 : Cert := ⟨
  [],
  [⟨46, [1476, 4063], true⟩,
   ⟨49, [1597, 4063], true⟩,
   ⟨46, [1501, 3999], true⟩,
   ⟨47, [1533, 3999], true⟩,
   ⟨44, [1412, 3999], true⟩,
   ⟨43, [1405, 3871], true⟩,
   ⟨44, [1437, 3871], true⟩,
   ⟨53, [1725, 4191], true⟩,
   ⟨54, [1757, 4191], true⟩,
   ⟨50, [1604, 4191], true⟩,
   ⟨48, [1540, 4127], true⟩,
   ⟨51, [1661, 4127], true⟩,
   ⟨42, [1373, 3871], true⟩,
   ⟨40, [1284, 3871], true⟩,
   ⟨52, [4127, 4191], true⟩,
   ⟨50, [4063, 4127], true⟩,
   ⟨48, [3999, 4063], true⟩,
   ⟨37, [1188, 3775], true⟩,
   ⟨41, [1341, 3775], true⟩,
   ⟨36, [1156, 3743], true⟩,
   ⟨40, [3743, 3775], true⟩],
  [[0, 1], [2, 3], [4, 3], [5, 6], [7, 8], [9, 7], [10, 11], [12, 5], [13, 5], [11, 14, 8], [1, 15, 11], [3, 16, 1],
   [17, 18], [19, 17, 20]]⟩

/-- I(50,2) -/
def cert12 : Cert := ⟨
  [(54, 50, 2), (52, 48, 2), (50, 46, 2), (48, 44, 2), (44, 40, 2), (41, 37, 2), (40, 36, 2), (38, 34, 2), (37, 33, 2)],
  [⟨44, [1414, 3969], true⟩,
   ⟨45, [3969, 4033], false⟩,
   ⟨46, [1478, 4033], true⟩,
   ⟨39, [1249, 3841], false⟩,
   ⟨40, [1286, 3841], true⟩,
   ⟨36, [1153, 3745], false⟩,
   ⟨37, [1190, 3745], true⟩,
   ⟨50, [1606, 4161], true⟩,
   ⟨51, [1633, 4161], true⟩,
   ⟨48, [1542, 4097], true⟩,
   ⟨49, [4097, 4161], false⟩,
   ⟨47, [4033, 4097], false⟩,
   ⟨41, [1313, 3841], true⟩,
   ⟨43, [1377, 3969], false⟩],
  [[0, 1, 2], [3, 4], [5, 6], [7, 8], [9, 10, 7], [2, 11, 9], [4, 12], [13, 1, 11, 10, 8]]⟩

/-- I(51,0) -/
def cert13 : Cert := ⟨
  [],
  [⟨44, [1437, 3903], true⟩,
   ⟨45, [1469, 3903], true⟩,
   ⟨47, [1508, 4095], true⟩,
   ⟨50, [1629, 4095], true⟩,
   ⟨47, [1533, 4031], true⟩,
   ⟨48, [1565, 4031], true⟩,
   ⟨45, [1444, 4031], true⟩,
   ⟨43, [1405, 3903], true⟩,
   ⟨41, [1316, 3903], true⟩,
   ⟨54, [1757, 4223], true⟩,
   ⟨55, [1789, 4223], true⟩,
   ⟨49, [1572, 4159], true⟩,
   ⟨52, [1693, 4159], true⟩,
   ⟨51, [1636, 4223], true⟩,
   ⟨51, [4095, 4159], true⟩,
   ⟨49, [4031, 4095], true⟩,
   ⟨53, [4159, 4223], true⟩,
   ⟨38, [1220, 3807], true⟩,
   ⟨42, [1373, 3807], true⟩,
   ⟨35, [1123, 3710], true⟩,
   ⟨39, [1276, 3710], true⟩,
   ⟨37, [1188, 3775], true⟩,
   ⟨40, [3775, 3807], true⟩],
  [[0, 1], [2, 3], [4, 5], [6, 5], [7, 0], [8, 0], [9, 10], [11, 12], [13, 9], [3, 14, 12], [5, 15, 3],
   [5, 15, 14, 16, 10], [17, 18], [19, 20], [21, 17, 22]]⟩

/-- I(51,2) -/
def cert14 : Cert := ⟨
  [(55, 51, 2), (53, 49, 2), (51, 47, 2), (49, 45, 2), (45, 41, 2), (42, 38, 2), (41, 37, 2), (39, 35, 2), (38, 34, 2), (35, 31, 2)],
  [⟨45, [1446, 4001], true⟩,
   ⟨46, [4001, 4065], false⟩,
   ⟨47, [1510, 4065], true⟩,
   ⟨40, [1281, 3873], false⟩,
   ⟨41, [1318, 3873], true⟩,
   ⟨48, [4065, 4129], false⟩,
   ⟨49, [1574, 4129], true⟩,
   ⟨44, [1409, 4001], false⟩,
   ⟨42, [1345, 3873], true⟩,
   ⟨37, [1185, 3777], false⟩,
   ⟨38, [1222, 3777], true⟩,
   ⟨51, [1638, 4193], true⟩,
   ⟨52, [1665, 4193], true⟩,
   ⟨50, [4129, 4193], false⟩,
   ⟨37, [1190, 3745], true⟩,
   ⟨40, [3745, 3777], true⟩,
   ⟨35, [1125, 3680], true⟩,
   ⟨39, [1278, 3680], true⟩],
  [[0, 1, 2], [3, 4], [2, 5, 6], [7, 0], [4, 8], [9, 10], [11, 12], [6, 13, 11], [9, 14, 15], [16, 17]]⟩

/-- I(52,0) -/
def cert15 : Cert := ⟨
  [],
  [⟨44, [1437, 3935], true⟩,
   ⟨45, [1469, 3935], true⟩,
   ⟨48, [1565, 4063], true⟩,
   ⟨49, [1597, 4063], true⟩,
   ⟨46, [1476, 4063], true⟩,
   ⟨46, [1501, 3935], true⟩,
   ⟨42, [1348, 3935], true⟩,
   ⟨50, [1604, 4191], true⟩,
   ⟨53, [1725, 4191], true⟩,
   ⟨48, [1540, 4127], true⟩,
   ⟨51, [1661, 4127], true⟩,
   ⟨55, [1789, 4255], true⟩,
   ⟨56, [1821, 4255], true⟩,
   ⟨52, [1668, 4255], true⟩,
   ⟨54, [4191, 4255], true⟩,
   ⟨50, [4063, 4127], true⟩,
   ⟨52, [4127, 4191], true⟩,
   ⟨39, [1252, 3839], true⟩,
   ⟨43, [1405, 3839], true⟩,
   ⟨38, [1220, 3807], true⟩,
   ⟨41, [3807, 3839], true⟩],
  [[0, 1], [2, 3], [4, 3], [1, 5], [6, 1], [7, 8], [9, 10], [11, 12], [13, 11], [8, 14, 12], [3, 15, 10],
   [2, 15, 16, 14, 11], [17, 18], [19, 17, 20]]⟩

/-- II(45,0) -/
def cert16 : Cert := ⟨
  [(63, 61, 2), (65, 65, 27), (64, 64, 27)],
  [⟨44, [1437, 3903], true⟩,
   ⟨45, [1469, 3903], true⟩,
   ⟨49, [1597, 4095], true⟩,
   ⟨50, [1629, 4095], true⟩,
   ⟨47, [1508, 4095], true⟩,
   ⟨43, [1405, 3903], true⟩,
   ⟨41, [1316, 3903], true⟩,
   ⟨52, [1693, 4159], true⟩,
   ⟨53, [1725, 4159], true⟩,
   ⟨49, [1572, 4159], true⟩,
   ⟨36, [1156, 3743], true⟩,
   ⟨40, [1309, 3743], true⟩,
   ⟨51, [4095, 4159], true⟩,
   ⟨63, [2017, 4609], false⟩,
   ⟨64, [2054, 4609], true⟩,
   ⟨60, [1920, 4512], false⟩,
   ⟨61, [1957, 4512], true⟩],
  [[0, 1], [2, 3], [4, 3], [5, 0], [6, 0], [7, 8], [9, 7], [10, 11], [3, 12, 7], [13, 14], [15, 16]]⟩

/-- II(46,0) -/
def cert17 : Cert := ⟨
  [(64, 62, 2), (65, 65, 27)],
  [⟨44, [1437, 3935], true⟩,
   ⟨45, [1469, 3935], true⟩,
   ⟨46, [1501, 3935], true⟩,
   ⟨42, [1348, 3935], true⟩,
   ⟨40, [1309, 3775], true⟩,
   ⟨41, [1341, 3775], true⟩,
   ⟨53, [1725, 4191], true⟩,
   ⟨54, [1757, 4191], true⟩,
   ⟨50, [1604, 4191], true⟩,
   ⟨50, [1629, 4127], true⟩,
   ⟨51, [1661, 4127], true⟩,
   ⟨48, [1540, 4127], true⟩,
   ⟨37, [1188, 3775], true⟩,
   ⟨52, [4127, 4191], true⟩,
   ⟨61, [1952, 4544], false⟩,
   ⟨62, [1989, 4544], true⟩],
  [[0, 1], [1, 2], [3, 1], [4, 5], [6, 7], [8, 6], [9, 10], [11, 10], [12, 4], [10, 13, 7], [14, 15]]⟩

/-- II(46,2) -/
def cert18 : Cert := ⟨
  [(62, 62, 27), (54, 50, 2), (52, 48, 2), (46, 42, 2), (41, 37, 2), (38, 34, 2), (36, 32, 2)],
  [⟨41, [1313, 3905], false⟩,
   ⟨42, [1350, 3905], true⟩,
   ⟨36, [1153, 3745], false⟩,
   ⟨37, [1190, 3745], true⟩,
   ⟨61, [1954, 4546], false⟩,
   ⟨62, [1991, 4546], true⟩,
   ⟨50, [1606, 4161], true⟩,
   ⟨51, [1633, 4161], true⟩,
   ⟨48, [1542, 4097], true⟩,
   ⟨49, [4097, 4161], false⟩,
   ⟨43, [1377, 3905], true⟩,
   ⟨47, [1505, 4097], false⟩],
  [[0, 1], [2, 3], [4, 5], [6, 7], [8, 9, 6], [1, 10], [11, 9, 7]]⟩

/-- II(47,0) -/
def cert19 : Cert := ⟨
  [(65, 63, 2)],
  [⟨46, [1501, 3967], true⟩,
   ⟨47, [1533, 3967], true⟩,
   ⟨45, [1469, 3967], true⟩,
   ⟨43, [1380, 3967], true⟩,
   ⟨40, [1309, 3807], true⟩,
   ⟨41, [1341, 3807], true⟩,
   ⟨54, [1757, 4223], true⟩,
   ⟨55, [1789, 4223], true⟩,
   ⟨49, [1572, 4159], true⟩,
   ⟨52, [1693, 4159], true⟩,
   ⟨42, [1373, 3807], true⟩,
   ⟨38, [1220, 3807], true⟩,
   ⟨51, [1636, 4223], true⟩,
   ⟨51, [1661, 4159], true⟩,
   ⟨53, [4159, 4223], true⟩,
   ⟨35, [1124, 3711], true⟩,
   ⟨39, [1277, 3711], true⟩,
   ⟨62, [1984, 4576], false⟩,
   ⟨63, [2021, 4576], true⟩,
   ⟨35, [1123, 3710], true⟩,
   ⟨39, [1276, 3710], true⟩],
  [[0, 1], [2, 0], [3, 0], [4, 5], [6, 7], [8, 9], [5, 10], [11, 5], [12, 6], [13, 9], [13, 14, 6], [15, 16], [17, 18],
   [19, 20]]⟩

/-- II(48,0) -/
def cert20 : Cert := ⟨
  [(64, 64, 27)],
  [⟨47, [1533, 3999], true⟩,
   ⟨48, [1565, 3999], true⟩,
   ⟨46, [1501, 3999], true⟩,
   ⟨44, [1412, 3999], true⟩,
   ⟨52, [1693, 4191], true⟩,
   ⟨53, [1725, 4191], true⟩,
   ⟨50, [1604, 4191], true⟩,
   ⟨42, [1373, 3839], true⟩,
   ⟨43, [1405, 3839], true⟩,
   ⟨41, [1341, 3839], true⟩,
   ⟨39, [1252, 3839], true⟩,
   ⟨55, [1789, 4255], true⟩,
   ⟨56, [1821, 4255], true⟩,
   ⟨52, [1668, 4255], true⟩,
   ⟨36, [1156, 3743], true⟩,
   ⟨40, [1309, 3743], true⟩,
   ⟨54, [4191, 4255], true⟩,
   ⟨63, [2016, 4608], false⟩,
   ⟨64, [2053, 4608], true⟩,
   ⟨36, [1155, 3742], true⟩,
   ⟨40, [1308, 3742], true⟩,
   ⟨35, [1150, 3742], false⟩],
  [[0, 1], [2, 0], [3, 0], [4, 5], [6, 5], [7, 8], [9, 7], [10, 7], [11, 12], [13, 11], [14, 15], [5, 16, 12], [17, 18],
   [19, 20], [21, 20]]⟩

/-- II(49,0) -/
def cert21 : Cert := ⟨
  [(65, 65, 27)],
  [⟨48, [1565, 4031], true⟩,
   ⟨49, [1597, 4031], true⟩,
   ⟨47, [1533, 4031], true⟩,
   ⟨45, [1444, 4031], true⟩,
   ⟨43, [1405, 3871], true⟩,
   ⟨44, [1437, 3871], true⟩,
   ⟨53, [1725, 4223], true⟩,
   ⟨54, [1757, 4223], true⟩,
   ⟨42, [1373, 3871], true⟩,
   ⟨40, [1284, 3871], true⟩,
   ⟨51, [1636, 4223], true⟩,
   ⟨55, [4223, 4287], true⟩,
   ⟨56, [1821, 4287], true⟩,
   ⟨57, [1853, 4287], true⟩,
   ⟨53, [1700, 4287], true⟩,
   ⟨37, [1188, 3775], true⟩,
   ⟨41, [1341, 3775], true⟩,
   ⟨37, [1187, 3774], true⟩,
   ⟨41, [1340, 3774], true⟩,
   ⟨36, [1182, 3774], false⟩],
  [[0, 1], [2, 0], [3, 0], [4, 5], [6, 7], [8, 4], [9, 4], [10, 7], [6, 11, 12], [12, 13], [14, 12], [15, 16], [17, 18],
   [19, 18]]⟩

/-- II(49,2) -/
def cert22 : Cert := ⟨
  [(65, 65, 27), (57, 53, 2), (55, 51, 2), (49, 45, 2), (44, 40, 2), (41, 37, 2), (39, 35, 2), (37, 33, 2), (35, 31, 2)],
  [⟨39, [1249, 3841], false⟩,
   ⟨40, [1286, 3841], true⟩,
   ⟨44, [1409, 4001], false⟩,
   ⟨45, [1446, 4001], true⟩,
   ⟨41, [1313, 3841], true⟩,
   ⟨53, [1702, 4257], true⟩,
   ⟨54, [1729, 4257], true⟩,
   ⟨51, [1638, 4193], true⟩,
   ⟨52, [4193, 4257], false⟩,
   ⟨50, [1601, 4193], false⟩,
   ⟨46, [1473, 4001], true⟩,
   ⟨37, [1189, 3744], true⟩,
   ⟨41, [1342, 3744], true⟩,
   ⟨36, [1152, 3744], false⟩],
  [[0, 1], [2, 3], [1, 4], [5, 6], [7, 8, 5], [9, 8, 6], [3, 10], [11, 12], [13, 12]]⟩

/-- II(50,0) -/
def cert23 : Cert := ⟨
  [],
  [⟨44, [1437, 3903], true⟩,
   ⟨45, [1469, 3903], true⟩,
   ⟨49, [1597, 4063], true⟩,
   ⟨50, [1629, 4063], true⟩,
   ⟨48, [1565, 4063], true⟩,
   ⟨46, [1476, 4063], true⟩,
   ⟨43, [1405, 3903], true⟩,
   ⟨41, [1316, 3903], true⟩,
   ⟨54, [1757, 4255], true⟩,
   ⟨55, [1789, 4255], true⟩,
   ⟨52, [1668, 4255], true⟩,
   ⟨57, [1853, 4319], true⟩,
   ⟨58, [1885, 4319], true⟩,
   ⟨54, [1732, 4319], true⟩,
   ⟨38, [1220, 3807], true⟩,
   ⟨42, [1373, 3807], true⟩,
   ⟨56, [4255, 4319], true⟩,
   ⟨38, [1219, 3806], true⟩,
   ⟨42, [1372, 3806], true⟩,
   ⟨37, [1214, 3806], false⟩],
  [[0, 1], [2, 3], [4, 2], [5, 2], [6, 0], [7, 0], [8, 9], [10, 9], [11, 12], [13, 11], [14, 15], [9, 16, 12], [17, 18],
   [19, 18]]⟩

/-- II(50,2) -/
def cert24 : Cert := ⟨
  [(58, 54, 2), (56, 52, 2), (50, 46, 2), (45, 41, 2), (42, 38, 2), (40, 36, 2), (38, 34, 2), (36, 32, 2)],
  [⟨40, [1281, 3873], false⟩,
   ⟨41, [1318, 3873], true⟩,
   ⟨46, [1478, 4033], true⟩,
   ⟨47, [1505, 4033], true⟩,
   ⟨42, [1345, 3873], true⟩,
   ⟨54, [1734, 4289], true⟩,
   ⟨55, [1761, 4289], true⟩,
   ⟨52, [1670, 4225], true⟩,
   ⟨53, [4225, 4289], false⟩,
   ⟨51, [1633, 4225], false⟩,
   ⟨45, [1441, 4033], false⟩,
   ⟨38, [1221, 3776], true⟩,
   ⟨42, [1374, 3776], true⟩,
   ⟨37, [1184, 3776], false⟩],
  [[0, 1], [2, 3], [1, 4], [5, 6], [7, 8, 5], [9, 8, 6], [10, 3], [11, 12], [13, 12]]⟩

/-- II(51,0) -/
def cert25 : Cert := ⟨
  [],
  [⟨44, [1437, 3935], true⟩,
   ⟨45, [1469, 3935], true⟩,
   ⟨49, [1597, 4095], true⟩,
   ⟨50, [1629, 4095], true⟩,
   ⟨47, [1508, 4095], true⟩,
   ⟨46, [1501, 3935], true⟩,
   ⟨42, [1348, 3935], true⟩,
   ⟨51, [1661, 4095], true⟩,
   ⟨55, [1789, 4287], true⟩,
   ⟨56, [1821, 4287], true⟩,
   ⟨58, [1885, 4351], true⟩,
   ⟨59, [1917, 4351], true⟩,
   ⟨57, [4287, 4351], true⟩,
   ⟨55, [1764, 4351], true⟩,
   ⟨53, [1700, 4287], true⟩,
   ⟨39, [1252, 3839], true⟩,
   ⟨43, [1405, 3839], true⟩,
   ⟨39, [1251, 3838], true⟩,
   ⟨43, [1404, 3838], true⟩,
   ⟨38, [1246, 3838], false⟩],
  [[0, 1], [2, 3], [4, 3], [1, 5], [6, 1], [3, 7], [8, 9], [10, 11], [9, 12, 11], [13, 10], [14, 9], [15, 16], [17, 18],
   [19, 18]]⟩

/-- II(51,2) -/
def cert26 : Cert := ⟨
  [(59, 55, 2), (57, 53, 2), (51, 47, 2), (46, 42, 2), (43, 39, 2), (41, 37, 2), (39, 35, 2), (37, 33, 2)],
  [⟨41, [1313, 3905], false⟩,
   ⟨42, [1350, 3905], true⟩,
   ⟨47, [1510, 4065], true⟩,
   ⟨48, [1537, 4065], true⟩,
   ⟨43, [1377, 3905], true⟩,
   ⟨55, [1766, 4321], true⟩,
   ⟨56, [1793, 4321], true⟩,
   ⟨53, [1702, 4257], true⟩,
   ⟨54, [4257, 4321], false⟩,
   ⟨52, [1665, 4257], false⟩,
   ⟨46, [1473, 4065], false⟩,
   ⟨39, [1253, 3808], true⟩,
   ⟨43, [1406, 3808], true⟩,
   ⟨38, [1216, 3808], false⟩],
  [[0, 1], [2, 3], [1, 4], [5, 6], [7, 8, 5], [9, 8, 6], [10, 3], [11, 12], [13, 12]]⟩

/-- II(52,0) -/
def cert27 : Cert := ⟨
  [],
  [⟨46, [1501, 3967], true⟩,
   ⟨47, [1533, 3967], true⟩,
   ⟨45, [1469, 3967], true⟩,
   ⟨43, [1380, 3967], true⟩,
   ⟨50, [1629, 4127], true⟩,
   ⟨51, [1661, 4127], true⟩,
   ⟨48, [1540, 4127], true⟩,
   ⟨52, [1693, 4127], true⟩,
   ⟨56, [1796, 4383], true⟩,
   ⟨59, [1917, 4383], true⟩,
   ⟨56, [1821, 4319], true⟩,
   ⟨58, [4319, 4383], true⟩,
   ⟨57, [1853, 4319], true⟩,
   ⟨54, [1732, 4319], true⟩,
   ⟨36, [1156, 3743], true⟩,
   ⟨38, [1220, 3807], true⟩,
   ⟨40, [3743, 3807], true⟩,
   ⟨60, [1949, 4383], true⟩,
   ⟨40, [1283, 3870], true⟩,
   ⟨44, [1436, 3870], true⟩,
   ⟨40, [1284, 3871], true⟩,
   ⟨44, [1437, 3871], true⟩,
   ⟨39, [1278, 3870], false⟩],
  [[0, 1], [2, 0], [3, 0], [4, 5], [6, 5], [5, 7], [8, 9], [10, 11, 9], [10, 12], [13, 12], [14, 15, 16], [9, 17],
   [18, 19], [20, 21], [22, 19]]⟩

/-- II(53,0) -/
def cert28 : Cert := ⟨
  [],
  [⟨47, [1533, 3999], true⟩,
   ⟨48, [1565, 3999], true⟩,
   ⟨46, [1501, 3999], true⟩,
   ⟨44, [1412, 3999], true⟩,
   ⟨52, [1693, 4159], true⟩,
   ⟨53, [1725, 4159], true⟩,
   ⟨49, [1572, 4159], true⟩,
   ⟨37, [1188, 3775], true⟩,
   ⟨40, [1309, 3775], true⟩,
   ⟨51, [1661, 4159], true⟩,
   ⟨39, [1252, 3839], true⟩,
   ⟨41, [3775, 3839], true⟩,
   ⟨57, [1853, 4351], true⟩,
   ⟨58, [1885, 4351], true⟩,
   ⟨55, [1764, 4351], true⟩,
   ⟨59, [4351, 4415], true⟩,
   ⟨61, [1981, 4415], true⟩,
   ⟨57, [1828, 4415], true⟩,
   ⟨41, [1315, 3902], true⟩,
   ⟨45, [1468, 3902], true⟩,
   ⟨41, [1316, 3903], true⟩,
   ⟨45, [1469, 3903], true⟩],
  [[0, 1], [2, 0], [3, 0], [4, 5], [6, 4], [7, 8], [9, 4], [7, 10, 11], [12, 13], [14, 13], [13, 15, 16], [17, 16],
   [18, 19], [20, 21]]⟩

/-- II(54,0) -/
def cert29 : Cert := ⟨
  [],
  [⟨48, [1565, 4031], true⟩,
   ⟨49, [1597, 4031], true⟩,
   ⟨47, [1533, 4031], true⟩,
   ⟨45, [1444, 4031], true⟩,
   ⟨53, [1725, 4191], true⟩,
   ⟨54, [1757, 4191], true⟩,
   ⟨52, [1693, 4191], true⟩,
   ⟨50, [1604, 4191], true⟩,
   ⟨38, [1220, 3807], true⟩,
   ⟨41, [1341, 3807], true⟩,
   ⟨40, [1284, 3871], true⟩,
   ⟨42, [3807, 3871], true⟩,
   ⟨58, [1885, 4383], true⟩,
   ⟨59, [1917, 4383], true⟩,
   ⟨56, [1796, 4383], true⟩,
   ⟨36, [1156, 3743], true⟩,
   ⟨40, [3743, 3807], true⟩,
   ⟨58, [1860, 4447], true⟩,
   ⟨62, [2013, 4447], true⟩,
   ⟨42, [1347, 3934], true⟩,
   ⟨46, [1500, 3934], true⟩,
   ⟨42, [1348, 3935], true⟩,
   ⟨46, [1501, 3935], true⟩],
  [[0, 1], [2, 0], [3, 0], [4, 5], [6, 4], [7, 4], [8, 9], [8, 10, 11], [12, 13], [14, 13], [15, 8, 16], [17, 18],
   [19, 20], [21, 22]]⟩

/-- II(55,0) -/
def cert30 : Cert := ⟨
  [],
  [⟨49, [1597, 4063], true⟩,
   ⟨50, [1629, 4063], true⟩,
   ⟨48, [1565, 4063], true⟩,
   ⟨46, [1476, 4063], true⟩,
   ⟨54, [1757, 4223], true⟩,
   ⟨55, [1789, 4223], true⟩,
   ⟨53, [1725, 4223], true⟩,
   ⟨39, [1252, 3839], true⟩,
   ⟨42, [1373, 3839], true⟩,
   ⟨37, [1188, 3775], true⟩,
   ⟨40, [1309, 3775], true⟩,
   ⟨51, [1636, 4223], true⟩,
   ⟨41, [1316, 3903], true⟩,
   ⟨43, [3839, 3903], true⟩,
   ⟨41, [3775, 3839], true⟩,
   ⟨59, [1892, 4479], true⟩,
   ⟨63, [2045, 4479], true⟩,
   ⟨57, [1828, 4415], true⟩,
   ⟨59, [1917, 4415], true⟩,
   ⟨43, [1379, 3966], true⟩,
   ⟨47, [1532, 3966], true⟩,
   ⟨43, [1380, 3967], true⟩,
   ⟨47, [1533, 3967], true⟩],
  [[0, 1], [2, 0], [3, 0], [4, 5], [6, 4], [7, 8], [9, 10], [11, 4], [7, 12, 13], [9, 7, 14], [15, 16], [17, 18], [19, 20],
   [21, 22]]⟩

/-- II(56,0) -/
def cert31 : Cert := ⟨
  [],
  [⟨49, [1597, 4095], true⟩,
   ⟨50, [1629, 4095], true⟩,
   ⟨47, [1508, 4095], true⟩,
   ⟨40, [1309, 3807], true⟩,
   ⟨41, [1341, 3807], true⟩,
   ⟨54, [1757, 4255], true⟩,
   ⟨55, [1789, 4255], true⟩,
   ⟨51, [1661, 4095], true⟩,
   ⟨40, [1284, 3871], true⟩,
   ⟨43, [1405, 3871], true⟩,
   ⟨38, [1220, 3807], true⟩,
   ⟨56, [1821, 4255], true⟩,
   ⟨52, [1668, 4255], true⟩,
   ⟨42, [1348, 3935], true⟩,
   ⟨44, [3871, 3935], true⟩,
   ⟨42, [3807, 3871], true⟩,
   ⟨60, [1924, 4511], true⟩,
   ⟨64, [2077, 4511], true⟩,
   ⟨44, [1411, 3998], true⟩,
   ⟨48, [1564, 3998], true⟩,
   ⟨44, [1412, 3999], true⟩,
   ⟨48, [1565, 3999], true⟩],
  [[0, 1], [2, 1], [3, 4], [5, 6], [1, 7], [8, 9], [10, 4], [6, 11], [12, 6], [8, 13, 14], [10, 8, 15], [16, 17], [18, 19],
   [20, 21]]⟩

def certs : List Cert := [
  cert0, cert1, cert2, cert3, cert4, cert5, cert6, cert7,
  cert8, cert9, cert10, cert11, cert12, cert13, cert14, cert15,
  cert16, cert17, cert18, cert19, cert20, cert21, cert22, cert23,
  cert24, cert25, cert26, cert27, cert28, cert29, cert30, cert31]

end Verif.Path
