import Mathlib.Data.Nat.Notation

/-!
# Points for the test of Lemmas/StabCheck, one list per formula

Not a table of the code: a certificate, in thousandths, decreasing.  Its choice has no influence
on what the test proves.
-/

namespace Odes.Tables.RockStab

def pts0 : List ℕ :=
  [5892, 5873, 5854, 5835, 5815, 5796, 5777, 5758, 5739, 5720, 5701, 5682, 5413, 5153, 5023,
   4958, 4894, 4861, 4829, 4796, 4780, 4764, 4747, 4731, 4715, 4699, 4682, 4666, 4650, 4634,
   4617, 4601, 4585, 4569, 4552, 4536, 4520, 4504, 4471, 4439, 4406, 4374, 4309, 4244, 4114,
   3984, 3855, 3336, 2817, 2298, 1779, 1260, 1000, 0]

def pts1 : List ℕ :=
  [9839, 9819, 9799, 9779, 9759, 9739, 9719, 9699, 9679, 9659, 9639, 9619, 9493, 9262, 9146,
   9030, 8972, 8914, 8885, 8856, 8827, 8798, 8769, 8740, 8682, 8624, 8566, 8508, 8450, 8334,
   8102, 7870, 7639, 7160, 6798, 6617, 6436, 6345, 6254, 6163, 6073, 6027, 5982, 5937, 5914,
   5892, 5869, 5846, 5823, 5801, 5778, 5756, 5733, 5711, 5688, 5665, 5642, 5620, 5597, 5574,
   5551, 5529, 5506, 5483, 5460, 5438, 5393, 5348, 5302, 5257, 5167, 5076, 4986, 4804, 4623,
   4261, 3537, 2812, 2087, 1362, 1000, 0]

def pts2 : List ℕ :=
  [14440, 14420, 14400, 14380, 14360, 14340, 14320, 14300, 14280, 14260, 14240, 14220, 14103,
   13891, 13679, 13626, 13573, 13520, 13467, 13414, 13361, 13255, 13149, 13043, 12831, 12619,
   12407, 12103, 11706, 11308, 11109, 11010, 10960, 10911, 10861, 10811, 10761, 10712, 10662,
   10613, 10563, 10514, 10414, 10315, 10216, 10117, 10067, 10017, 9918, 9720, 9323, 8926, 8298,
   7868, 7439, 7224, 7117, 7010, 6902, 6848, 6795, 6741, 6688, 6634, 6607, 6581, 6554, 6527,
   6500, 6473, 6446, 6419, 6392, 6366, 6339, 6312, 6285, 6258, 6231, 6204, 6177, 6151, 6124,
   6097, 6070, 6043, 6016, 5989, 5936, 5882, 5829, 5775, 5722, 5614, 5507, 5293, 5078, 4864,
   4434, 4005, 3146, 2288, 1429, 1000, 0]

def pts3 : List ℕ :=
  [19738, 19718, 19698, 19678, 19658, 19638, 19618, 19598, 19578, 19558, 19538, 19518, 19405,
   19201, 18996, 18894, 18843, 18792, 18766, 18740, 18689, 18587, 18382, 18178, 17973, 17768,
   17475, 17092, 16710, 16519, 16423, 16328, 16232, 16184, 16136, 16088, 16040, 15945, 15849,
   15754, 15706, 15658, 15563, 15180, 14798, 14415, 13965, 13446, 12927, 12667, 12537, 12408,
   12343, 12278, 12213, 12148, 12115, 12083, 12050, 12018, 11985, 11953, 11889, 11824, 11759,
   11629, 11370, 11240, 11110, 10851, 10333, 9814, 9079, 8604, 8129, 7891, 7653, 7534, 7415,
   7355, 7296, 7237, 7178, 7118, 7088, 7059, 7029, 6999, 6969, 6940, 6910, 6880, 6850, 6821,
   6791, 6762, 6732, 6703, 6673, 6643, 6613, 6584, 6554, 6524, 6494, 6465, 6435, 6405, 6346,
   6287, 6228, 6168, 6109, 5990, 5871, 5752, 5514, 5277, 4802, 4327, 3376, 2426, 1475, 1000, 0]

def pts4 : List ℕ :=
  [25740, 25720, 25700, 25680, 25660, 25640, 25620, 25600, 25580, 25560, 25540, 25520, 25410,
   25209, 25008, 24907, 24807, 24781, 24756, 24706, 24606, 24405, 24204, 24003, 23802, 23512,
   23133, 22753, 22563, 22374, 22279, 22184, 22089, 21994, 21899, 21804, 21615, 21236, 20856,
   20477, 20029, 19511, 18994, 18735, 18606, 18477, 18347, 18282, 18218, 18153, 18089, 18024,
   17960, 17830, 17701, 17572, 17443, 17313, 17184, 16926, 16408, 15891, 15328, 14718, 14108,
   13803, 13650, 13498, 13421, 13345, 13269, 13193, 13116, 13078, 13040, 13002, 12964, 12926,
   12888, 12811, 12735, 12659, 12583, 12430, 12278, 12125, 11973, 11669, 11364, 11059, 10449,
   9636, 9128, 8620, 8366, 8112, 7985, 7858, 7731, 7667, 7604, 7540, 7477, 7445, 7413, 7381,
   7350, 7318, 7286, 7254, 7223, 7191, 7159, 7127, 7096, 7064, 7032, 7000, 6969, 6937, 6905,
   6873, 6842, 6810, 6778, 6746, 6715, 6683, 6651, 6588, 6524, 6461, 6397, 6334, 6207, 6080,
   5953, 5826, 5572, 5064, 4556, 3540, 2524, 1508, 1000, 0]

def pts5 : List ℕ :=
  [32449, 32429, 32409, 32389, 32369, 32349, 32329, 32309, 32289, 32269, 32249, 32229, 32120,
   31921, 31722, 31622, 31523, 31473, 31423, 31324, 31125, 30927, 30728, 30529, 30240, 29861,
   29482, 29292, 29103, 29008, 28913, 28818, 28723, 28628, 28533, 28344, 27965, 27586, 27207,
   26755, 26231, 25707, 25445, 25183, 25051, 24920, 24854, 24789, 24658, 24527, 24396, 24265,
   24134, 23610, 23085, 22561, 21987, 21364, 20740, 20428, 20117, 19961, 19883, 19805, 19727,
   19649, 19571, 19494, 19416, 19338, 19182, 19026, 18870, 18714, 18558, 18247, 17623, 17000,
   16349, 15670, 14991, 14651, 14481, 14312, 14142, 14057, 13972, 13887, 13844, 13802, 13759,
   13717, 13675, 13633, 13590, 13548, 13463, 13378, 13293, 13123, 12954, 12784, 12614, 12275,
   11596, 10917, 10046, 9514, 8982, 8715, 8449, 8316, 8183, 8050, 7983, 7917, 7850, 7784, 7717,
   7684, 7651, 7617, 7584, 7551, 7518, 7484, 7451, 7418, 7385, 7351, 7318, 7285, 7252, 7218,
   7185, 7152, 7119, 7085, 7052, 7019, 6986, 6952, 6919, 6886, 6853, 6786, 6720, 6653, 6587,
   6520, 6454, 6321, 6188, 6055, 5789, 5523, 5257, 4725, 3661, 2596, 1532, 1000, 0]

def pts6 : List ℕ :=
  [39865, 39845, 39825, 39805, 39785, 39765, 39745, 39725, 39705, 39685, 39665, 39645, 39536,
   39338, 39141, 39042, 38992, 38943, 38918, 38893, 38844, 38746, 38548, 38350, 38153, 37955,
   37667, 37287, 36907, 36717, 36528, 36433, 36338, 36243, 36148, 36053, 35958, 35769, 35389,
   35010, 34630, 34174, 33643, 33111, 32845, 32579, 32446, 32313, 32180, 32047, 31914, 31781,
   31515, 30983, 30452, 29920, 29332, 28689, 28046, 27724, 27403, 27242, 27081, 27000, 26920,
   26840, 26760, 26599, 26438, 26117, 25795, 25473, 24830, 24187, 23512, 22804, 22096, 21742,
   21389, 21212, 21123, 21035, 20946, 20858, 20769, 20681, 20592, 20504, 20327, 20150, 19973,
   19796, 19619, 19266, 18558, 17850, 17130, 16398, 15666, 15299, 15116, 14933, 14750, 14658,
   14567, 14475, 14429, 14384, 14338, 14292, 14246, 14201, 14155, 14109, 14018, 13926, 13835,
   13652, 13469, 13103, 12737, 12370, 12004, 11272, 10355, 9805, 9255, 8979, 8704, 8566, 8429,
   8291, 8222, 8154, 8085, 8016, 7947, 7913, 7879, 7844, 7810, 7775, 7741, 7706, 7672, 7638,
   7604, 7569, 7535, 7517, 7500, 7466, 7448, 7431, 7397, 7363, 7329, 7294, 7260, 7225, 7191,
   7156, 7122, 7088, 7054, 7019, 6985, 6916, 6847, 6778, 6709, 6640, 6503, 6365, 6228, 5953,
   5677, 5402, 4852, 3752, 2651, 1550, 1000, 0]

def pts7 : List ℕ :=
  [47978, 47958, 47938, 47918, 47898, 47878, 47858, 47838, 47818, 47798, 47778, 47758, 47649,
   47452, 47256, 47157, 47108, 47059, 47034, 47009, 46960, 46862, 46666, 46469, 46272, 46076,
   45787, 45407, 45027, 44646, 44456, 44361, 44266, 44076, 43886, 43506, 43126, 42745, 42286,
   41748, 41209, 40940, 40671, 40536, 40402, 40267, 40133, 39998, 39863, 39594, 39056, 38517,
   37979, 37379, 36719, 36058, 35727, 35397, 35231, 35066, 34901, 34736, 34570, 34405, 34240,
   34075, 33414, 32753, 32092, 31391, 30651, 29910, 29540, 29170, 28984, 28799, 28706, 28614,
   28521, 28429, 28243, 28058, 27688, 27318, 26948, 26207, 25467, 24709, 23934, 23159, 22771,
   22384, 22190, 21996, 21899, 21802, 21705, 21609, 21512, 21415, 21221, 21027, 20833, 20639,
   20445, 20058, 19283, 18508, 17734, 16959, 16185, 15798, 15604, 15411, 15217, 15120, 15024,
   14927, 14830, 14781, 14733, 14685, 14637, 14588, 14540, 14491, 14443, 14346, 14250, 14153,
   14056, 13863, 13476, 13089, 12702, 12315, 11540, 10589, 10025, 9461, 9179, 8897, 8756, 8615,
   8474, 8403, 8333, 8262, 8192, 8121, 8051, 8015, 7980, 7945, 7910, 7874, 7839, 7804, 7769,
   7733, 7698, 7663, 7628, 7592, 7557, 7522, 7487, 7451, 7416, 7381, 7346, 7310, 7275, 7240,
   7205, 7169, 7134, 7064, 6993, 6923, 6852, 6782, 6641, 6500, 6359, 6077, 5795, 5513, 4949,
   3820, 2692, 1564, 1000, 0]

def pts8 : List ℕ :=
  [56701, 56688, 56676, 56663, 56651, 56638, 56626, 56613, 56600, 56588, 56575, 56563, 56458,
   56262, 56066, 55968, 55919, 55870, 55821, 55772, 55674, 55478, 55282, 55086, 54890, 54601,
   54221, 53840, 53459, 53363, 53268, 53173, 53078, 52697, 52316, 51935, 51555, 51092, 50549,
   50005, 49461, 49189, 49053, 48917, 48781, 48645, 48373, 47829, 47286, 46742, 46132, 45456,
   44781, 44443, 44105, 43936, 43767, 43598, 43429, 43260, 43091, 42753, 42078, 41402, 40726,
   40003, 39234, 38464, 38079, 37695, 37502, 37310, 37117, 36925, 36732, 36540, 36156, 35771,
   35386, 34617, 33847, 33052, 32231, 31411, 31000, 30590, 30384, 30179, 30076, 29974, 29871,
   29769, 29666, 29564, 29359, 29154, 28949, 28846, 28743, 28538, 28128, 27307, 26486, 25661,
   24832, 24002, 23587, 23173, 22965, 22758, 22654, 22550, 22446, 22343, 22239, 22135, 22031,
   21928, 21514, 21099, 20684, 19855, 19025, 18207, 17399, 16592, 16188, 15986, 15784, 15582,
   15481, 15380, 15279, 15178, 15127, 15077, 15027, 14977, 14926, 14876, 14825, 14775, 14674,
   14573, 14472, 14371, 14169, 13765, 13362, 12958, 12554, 11747, 10768, 10193, 9619, 9331,
   9044, 8900, 8757, 8613, 8470, 8398, 8326, 8254, 8182, 8110, 8074, 8038, 8002, 7966, 7930,
   7895, 7859, 7823, 7787, 7751, 7715, 7679, 7643, 7608, 7572, 7536, 7500, 7464, 7428, 7392,
   7356, 7321, 7285, 7249, 7177, 7105, 7033, 6961, 6889, 6746, 6602, 6459, 6172, 5884, 5597,
   5022, 3873, 2724, 1575, 1000, 0]

def pts9 : List ℕ :=
  [66234, 66221, 66208, 66195, 66181, 66168, 66155, 66142, 66129, 66115, 66102, 66089, 65985,
   65789, 65593, 65495, 65446, 65398, 65349, 65300, 65202, 65007, 64811, 64615, 64420, 64131,
   63750, 63368, 62987, 62796, 62748, 62700, 62605, 62224, 61842, 61461, 61079, 60615, 60066,
   59518, 58969, 58695, 58558, 58421, 58352, 58283, 58146, 57872, 57324, 56776, 56227, 55609,
   54921, 54233, 53544, 53200, 53028, 52856, 52684, 52512, 52168, 51480, 50792, 50104, 49362,
   48568, 47774, 46980, 46781, 46583, 46384, 46186, 45987, 45789, 45689, 45590, 45392, 44598,
   43804, 43010, 42183, 41321, 40460, 40029, 39599, 39383, 39168, 38953, 38845, 38738, 38522,
   38307, 37877, 37446, 37016, 36155, 35293, 34419, 33532, 32645, 32201, 31757, 31535, 31313,
   31202, 31091, 30980, 30870, 30759, 30648, 30426, 30204, 29983, 29761, 29539, 29096, 28208,
   27321, 26441, 25566, 24692, 24255, 23818, 23599, 23381, 23271, 23162, 23053, 22944, 22834,
   22725, 22616, 22507, 22288, 22070, 21633, 21196, 20322, 19448, 18594, 17759, 16925, 16507,
   16298, 16090, 15881, 15777, 15673, 15568, 15464, 15412, 15360, 15308, 15256, 15203, 15151,
   15099, 15047, 14942, 14838, 14733, 14629, 14421, 14004, 13587, 13378, 13169, 12752, 11918,
   10917, 10333, 9750, 9458, 9167, 9021, 8875, 8729, 8584, 8511, 8438, 8365, 8292, 8219, 8182,
   8146, 8109, 8073, 8036, 8000, 7963, 7927, 7890, 7854, 7817, 7781, 7744, 7708, 7671, 7635,
   7598, 7562, 7525, 7489, 7453, 7417, 7380, 7344, 7271, 7198, 7125, 7052, 6979, 6833, 6687,
   6541, 6250, 5958, 5667, 5084, 3917, 2750, 1583, 1000, 0]

def pts10 : List ℕ :=
  [76565, 76545, 76525, 76505, 76485, 76465, 76445, 76425, 76405, 76385, 76365, 76345, 76237,
   76042, 75846, 75748, 75699, 75651, 75602, 75553, 75456, 75261, 75065, 74870, 74675, 74386,
   74004, 73622, 73240, 73144, 73048, 72952, 72857, 72475, 72093, 71711, 71329, 70862, 70309,
   69757, 69205, 68928, 68790, 68652, 68514, 68376, 68100, 67548, 66995, 66443, 65817, 65119,
   64420, 63721, 63372, 63023, 62848, 62673, 62324, 61625, 60927, 60228, 59471, 58657, 57842,
   57027, 56823, 56619, 56415, 56212, 56110, 56008, 55805, 55398, 54583, 53768, 52953, 52098,
   51202, 50306, 49410, 49186, 48962, 48738, 48515, 48291, 48067, 47843, 47619, 46723, 45827,
   44931, 44014, 43075, 42136, 41666, 41197, 40962, 40727, 40492, 40375, 40258, 40023, 39789,
   39671, 39554, 39320, 39085, 38850, 38381, 37442, 36503, 35562, 34619, 33676, 33204, 32733,
   32497, 32261, 32143, 32025, 31907, 31790, 31672, 31554, 31318, 31082, 30847, 30611, 30375,
   29904, 28961, 28018, 27091, 26180, 25269, 24813, 24358, 24130, 23902, 23788, 23674, 23560,
   23447, 23333, 23219, 23105, 22991, 22763, 22536, 22308, 22080, 21625, 20714, 19803, 18919,
   18062, 17205, 16777, 16563, 16349, 16134, 16027, 15920, 15813, 15706, 15652, 15599, 15545,
   15492, 15438, 15384, 15330, 15277, 15170, 15063, 14956, 14849, 14635, 14207, 13993, 13779,
   13671, 13564, 13350, 12922, 12065, 11046, 10455, 9864, 9568, 9273, 9125, 8977, 8829, 8682,
   8608, 8534, 8460, 8386, 8312, 8275, 8238, 8201, 8164, 8127, 8091, 8054, 8017, 7980, 7943,
   7906, 7869, 7832, 7795, 7758, 7721, 7684, 7647, 7610, 7573, 7536, 7500, 7463, 7426, 7389,
   7352, 7278, 7204, 7130, 7056, 6982, 6909, 6761, 6614, 6319, 6023, 5728, 5137, 3955, 2773,
   1591, 1000, 0]

def pts11 : List ℕ :=
  [87415, 87401, 87388, 87375, 87361, 87348, 87335, 87321, 87308, 87294, 87281, 87268, 87163,
   86968, 86773, 86675, 86626, 86578, 86529, 86480, 86383, 86188, 85993, 85798, 85603, 85315,
   84932, 84549, 84167, 84071, 83975, 83879, 83784, 83402, 83019, 82637, 82254, 81785, 81229,
   80674, 80118, 79840, 79701, 79563, 79424, 79285, 79007, 78452, 77896, 77341, 76710, 76002,
   75295, 74588, 74234, 74057, 73881, 73704, 73527, 73174, 72466, 71759, 71052, 70282, 69450,
   68618, 67786, 67370, 67162, 66954, 66746, 66538, 66123, 65291, 64459, 63627, 62748, 61823,
   60898, 59973, 59741, 59510, 59279, 59048, 58816, 58585, 58354, 58123, 57198, 56273, 55347,
   54393, 53410, 52427, 51444, 51198, 50952, 50706, 50460, 50214, 49968, 49722, 49477, 48494,
   47511, 46527, 45533, 44529, 43524, 43021, 42519, 42268, 42017, 41766, 41640, 41515, 41263,
   41012, 40761, 40510, 40258, 40007, 39505, 38501, 37496, 36499, 35509, 34520, 34025, 33530,
   33282, 33035, 32911, 32787, 32663, 32540, 32416, 32292, 32045, 31551, 31056, 30561, 29571,
   28582, 27616, 26674, 25733, 25262, 24791, 24555, 24320, 24202, 24084, 23966, 23849, 23731,
   23613, 23495, 23378, 23143, 22908, 22437, 21966, 21024, 20083, 19174, 18299, 17424, 16986,
   16767, 16549, 16330, 16220, 16111, 16001, 15892, 15837, 15783, 15728, 15674, 15619, 15564,
   15509, 15455, 15346, 15237, 15127, 15018, 14800, 14362, 13925, 13706, 13487, 13050, 12175,
   11141, 10544, 9948, 9649, 9351, 9202, 9053, 8904, 8755, 8680, 8605, 8530, 8456, 8381, 8307,
   8269, 8232, 8195, 8158, 8120, 8083, 8046, 8009, 7971, 7934, 7897, 7860, 7822, 7785, 7748,
   7711, 7673, 7636, 7599, 7562, 7524, 7487, 7412, 7337, 7263, 7188, 7114, 7039, 6965, 6816,
   6667, 6369, 6070, 5772, 5176, 3983, 2790, 1597, 1000, 0]

def pts12 : List ℕ :=
  [99158, 99138, 99118, 99098, 99078, 99058, 99038, 99018, 98998, 98978, 98958, 98938, 98830,
   98635, 98440, 98343, 98294, 98246, 98197, 98148, 98051, 97856, 97661, 97466, 97271, 96982,
   96599, 96216, 95833, 95737, 95641, 95545, 95450, 95258, 95067, 94684, 94301, 93918, 93447,
   92889, 92331, 91772, 91493, 91423, 91353, 91283, 91214, 90935, 90656, 90097, 89539, 88981,
   88344, 87630, 86915, 86200, 85843, 85664, 85486, 85307, 85128, 84771, 84057, 83342, 82627,
   81847, 81000, 80153, 79306, 78883, 78460, 78248, 78036, 77613, 76766, 75919, 75073, 74174,
   73224, 72274, 71324, 70848, 70610, 70373, 70254, 70135, 69898, 69423, 68473, 67523, 66572,
   65586, 64565, 63543, 62521, 62265, 62010, 61755, 61500, 61244, 60989, 60861, 60733, 60478,
   59456, 58434, 57413, 56372, 55313, 54254, 53196, 52931, 52666, 52401, 52137, 51872, 51607,
   51078, 50548, 50019, 48960, 47901, 46841, 45779, 44718, 44187, 43657, 43391, 43126, 42861,
   42728, 42596, 42330, 42065, 41534, 41003, 40473, 39412, 38351, 37305, 36276, 35246, 34731,
   34217, 33959, 33702, 33573, 33445, 33316, 33188, 33059, 32930, 32673, 32158, 31643, 31129,
   30099, 29070, 28071, 27103, 26136, 25652, 25168, 24926, 24684, 24563, 24442, 24321, 24200,
   24079, 23958, 23837, 23716, 23474, 23233, 22991, 22749, 22507, 22265, 21297, 20329, 19400,
   18510, 17620, 17174, 16951, 16729, 16506, 16395, 16284, 16172, 16061, 16005, 15950, 15894,
   15839, 15783, 15727, 15671, 15616, 15505, 15394, 15282, 15171, 14949, 14503, 14058, 13613,
   13168, 12278, 11231, 10629, 10027, 9726, 9425, 9274, 9124, 8973, 8823, 8747, 8672, 8597,
   8522, 8446, 8408, 8371, 8333, 8296, 8258, 8221, 8183, 8145, 8107, 8070, 8032, 7995, 7957,
   7920, 7882, 7845, 7807, 7770, 7732, 7695, 7657, 7620, 7582, 7544, 7506, 7469, 7394, 7319,
   7243, 7168, 7093, 7018, 6867, 6717, 6566, 6416, 6115, 5814, 5213, 4009, 2805, 1602, 1000, 0]

def pts13 : List ℕ :=
  [111530, 111510, 111490, 111470, 111450, 111430, 111410, 111390, 111370, 111350, 111330,
   111310, 111202, 111007, 110813, 110715, 110666, 110618, 110569, 110520, 110423, 110229,
   110034, 109839, 109645, 109355, 108972, 108588, 108205, 108109, 108013, 107917, 107821,
   107438, 107054, 106671, 106287, 105815, 105255, 104694, 104133, 103853, 103713, 103573,
   103432, 103292, 103012, 102451, 101890, 101330, 100689, 99968, 99247, 98526, 98165, 97985,
   97805, 97714, 97624, 97444, 97084, 96364, 95643, 94922, 94132, 93272, 92413, 91554, 91124,
   90694, 90479, 90264, 89835, 88976, 88116, 87257, 86342, 85370, 84398, 83426, 82940, 82697,
   82455, 82212, 81969, 81483, 80511, 79540, 78568, 77555, 76500, 75445, 74390, 73862, 73598,
   73335, 73071, 72807, 72543, 72280, 71225, 70171, 69116, 68035, 66929, 65823, 64716, 64439,
   64163, 63886, 63610, 63333, 63057, 62918, 62780, 62504, 61398, 60291, 59185, 58070, 56945,
   55821, 54696, 54414, 54133, 53852, 53571, 53290, 53009, 52447, 51884, 51322, 50197, 49073,
   47956, 46846, 45736, 45181, 44626, 44348, 44071, 43793, 43654, 43516, 43377, 43238, 42961,
   42406, 41851, 41296, 40187, 39077, 37990, 36927, 35863, 35331, 34800, 34534, 34268, 34135,
   34002, 33869, 33736, 33603, 33470, 33204, 32938, 32673, 32540, 32407, 32141, 31609, 30546,
   29482, 28456, 27466, 26476, 25981, 25486, 25238, 24991, 24867, 24744, 24620, 24497, 24373,
   24249, 24125, 24002, 23754, 23507, 23012, 22517, 21527, 20537, 19591, 18687, 17784, 17332,
   17106, 16881, 16655, 16542, 16429, 16316, 16203, 16146, 16090, 16033, 15977, 15920, 15864,
   15807, 15751, 15694, 15638, 15525, 15412, 15299, 15074, 14622, 14170, 13718, 13267, 12364,
   11306, 10699, 10093, 9790, 9487, 9335, 9184, 9032, 8881, 8805, 8729, 8653, 8577, 8501, 8463,
   8425, 8387, 8349, 8311, 8274, 8236, 8198, 8160, 8122, 8084, 8046, 8008, 7971, 7933, 7895,
   7857, 7819, 7781, 7743, 7705, 7668, 7630, 7592, 7554, 7516, 7440, 7365, 7289, 7213, 7137,
   7062, 6910, 6759, 6607, 6456, 6153, 5850, 5244, 4031, 2819, 1606, 1000, 0]

def pts14 : List ℕ :=
  [124574, 124554, 124534, 124514, 124494, 124474, 124454, 124434, 124414, 124394, 124374,
   124354, 124246, 124052, 123857, 123760, 123711, 123663, 123614, 123565, 123468, 123274,
   123079, 122885, 122690, 122401, 122017, 121633, 121249, 121153, 121057, 120961, 120866,
   120674, 120482, 120098, 119714, 119331, 118857, 118295, 117732, 117170, 116888, 116817,
   116747, 116607, 116466, 116325, 116044, 115482, 114919, 114356, 113712, 112986, 112260,
   111534, 111171, 110989, 110808, 110717, 110626, 110445, 110082, 109356, 108629, 107903,
   107105, 106235, 105366, 104496, 104061, 103843, 103626, 103517, 103408, 103191, 102756,
   101886, 101016, 100146, 99217, 98227, 97237, 96247, 95752, 95504, 95257, 95133, 95009, 94762,
   94267, 93277, 92287, 91297, 90260, 89177, 88094, 87010, 86468, 86197, 85927, 85656, 85385,
   84844, 83761, 82677, 81594, 80479, 79332, 78184, 77037, 76463, 76176, 75890, 75603, 75316,
   75172, 75029, 74743, 73596, 72449, 71301, 70138, 68958, 67777, 66597, 66302, 66007, 65712,
   65417, 65122, 64827, 64532, 64237, 63057, 61877, 60697, 59516, 58334, 57153, 55971, 55675,
   55380, 55085, 54790, 54494, 54199, 54051, 53903, 53755, 53608, 52427, 51245, 50064, 48897,
   47746, 46594, 46018, 45442, 45154, 44866, 44578, 44434, 44291, 44147, 44003, 43715, 43139,
   42563, 41987, 40836, 39684, 38562, 37470, 36377, 35831, 35285, 35011, 34738, 34601, 34465,
   34328, 34192, 34055, 33919, 33646, 33100, 32826, 32553, 32007, 30915, 29823, 28772, 27764,
   26755, 26250, 25746, 25494, 25242, 25116, 24990, 24864, 24738, 24611, 24485, 24359, 24233,
   23981, 23729, 23477, 23225, 22973, 22721, 21712, 20704, 19742, 18828, 17914, 17456, 17227,
   16999, 16770, 16656, 16542, 16427, 16313, 16256, 16199, 16142, 16085, 16027, 15970, 15913,
   15856, 15799, 15742, 15628, 15513, 15399, 15171, 14713, 14256, 14027, 13799, 13342, 12427,
   11361, 10751, 10142, 9837, 9532, 9379, 9227, 9075, 8923, 8846, 8770, 8694, 8618, 8541, 8465,
   8427, 8389, 8351, 8313, 8274, 8236, 8198, 8160, 8122, 8084, 8046, 8008, 7970, 7932, 7894,
   7856, 7818, 7780, 7742, 7704, 7665, 7627, 7589, 7551, 7475, 7399, 7322, 7246, 7170, 7094,
   6941, 6789, 6637, 6485, 6180, 5875, 5266, 4047, 2828, 1609, 1000, 0]

def pts15 : List ℕ :=
  [138369, 138349, 138329, 138309, 138289, 138269, 138249, 138229, 138209, 138189, 138169,
   138149, 138042, 137847, 137653, 137555, 137458, 137361, 137264, 137069, 136875, 136680,
   136486, 136197, 135812, 135428, 135044, 134852, 134660, 134276, 133892, 133507, 133123,
   132649, 132085, 131520, 130956, 130673, 130532, 130391, 130109, 129827, 129263, 128698,
   128134, 127486, 126755, 126025, 125294, 124928, 124745, 124563, 124380, 124197, 123832,
   123101, 122371, 121640, 120835, 119956, 119076, 118197, 117757, 117537, 117318, 117098,
   116878, 116439, 115560, 114680, 113801, 112859, 111852, 110846, 109840, 109337, 109085,
   108834, 108708, 108582, 108331, 107828, 106822, 105816, 104810, 103753, 102645, 101536,
   100428, 99874, 99597, 99320, 99043, 98766, 98489, 98212, 97103, 95995, 94887, 93741, 92558,
   91375, 90192, 89600, 89304, 89008, 88712, 88416, 88120, 87825, 86642, 85459, 84275, 83069,
   81840, 80610, 79381, 78766, 78459, 78152, 77844, 77537, 77383, 77229, 76922, 75693, 74464,
   73234, 71997, 70751, 69506, 68260, 67948, 67637, 67326, 67015, 66703, 66392, 66236, 66080,
   65769, 64524, 63278, 62033, 60794, 59563, 58331, 57100, 56792, 56484, 56176, 56022, 55868,
   55560, 55252, 54637, 54021, 53405, 52173, 50942, 49732, 48544, 47355, 46761, 46167, 45870,
   45573, 45276, 45127, 44979, 44830, 44682, 44385, 44088, 43791, 43642, 43493, 43196, 42602,
   41414, 40226, 39073, 37955, 36837, 36278, 35719, 35439, 35160, 35020, 34880, 34740, 34601,
   34461, 34321, 34042, 33762, 33483, 33343, 33203, 32924, 32366, 31248, 30130, 29059, 28034,
   27009, 26496, 25984, 25727, 25471, 25343, 25215, 25087, 24959, 24830, 24702, 24574, 24446,
   24190, 23934, 23677, 23421, 23165, 22909, 21884, 20859, 19885, 18961, 18037, 17575, 17344,
   17113, 16882, 16766, 16651, 16535, 16420, 16362, 16304, 16246, 16189, 16131, 16073, 16015,
   15958, 15900, 15842, 15727, 15611, 15496, 15265, 14803, 14572, 14341, 13879, 13417, 12493,
   11418, 10805, 10193, 9886, 9580, 9426, 9273, 9120, 8967, 8890, 8813, 8736, 8660, 8583, 8545,
   8507, 8468, 8430, 8392, 8354, 8315, 8277, 8238, 8200, 8161, 8123, 8085, 8047, 8008, 7970,
   7932, 7894, 7855, 7817, 7779, 7741, 7702, 7664, 7625, 7587, 7548, 7510, 7434, 7357, 7281,
   7204, 7128, 6975, 6822, 6669, 6516, 6209, 5903, 5290, 4064, 2839, 1613, 1000, 0]

def pts16 : List ℕ :=
  [152850, 152830, 152810, 152790, 152770, 152750, 152730, 152710, 152690, 152670, 152650,
   152630, 152523, 152329, 152134, 152037, 151988, 151940, 151915, 151891, 151842, 151745,
   151551, 151357, 151162, 150968, 150678, 150294, 149910, 149525, 149333, 149141, 148948,
   148756, 148372, 147987, 147603, 147128, 146562, 145996, 145430, 145147, 145076, 145005,
   144864, 144722, 144581, 144298, 143732, 143167, 142601, 141950, 141216, 140481, 139746,
   139378, 139194, 139011, 138919, 138827, 138644, 138277, 137542, 136807, 136072, 135261,
   134374, 133487, 132600, 132156, 131934, 131712, 131490, 131268, 130825, 129938, 129051,
   128163, 127210, 126190, 125170, 124150, 123640, 123385, 123130, 122875, 122620, 122110,
   121090, 120070, 119050, 117976, 116846, 115716, 114586, 114021, 113456, 113314, 113173,
   112891, 112326, 111196, 110066, 108936, 107764, 106549, 105334, 104120, 103512, 103208,
   102905, 102601, 102297, 101690, 100475, 99261, 98046, 96802, 95530, 94257, 92985, 92348,
   92030, 91712, 91393, 91075, 90757, 90439, 89167, 87894, 86622, 85334, 84032, 82730, 81428,
   80777, 80451, 80126, 79800, 79474, 79311, 79148, 78823, 77521, 76219, 74917, 73614, 72311,
   71008, 69705, 69379, 69053, 68727, 68402, 68076, 67750, 67424, 67099, 65796, 64493, 63190,
   61900, 60625, 59350, 58712, 58074, 57755, 57436, 57117, 56958, 56799, 56480, 56161, 55524,
   54886, 54248, 52973, 51698, 50450, 49230, 48009, 47399, 46789, 46484, 46179, 45874, 45721,
   45569, 45416, 45264, 44959, 44654, 44349, 43739, 43129, 41908, 40688, 39508, 38368, 37229,
   36659, 36089, 35804, 35519, 35376, 35234, 35091, 34949, 34806, 34664, 34521, 34379, 33809,
   33239, 32669, 31530, 30390, 29300, 28261, 27222, 26702, 26183, 25923, 25663, 25533, 25403,
   25273, 25144, 25014, 24884, 24754, 24624, 24364, 24105, 23845, 23585, 23455, 23325, 23066,
   22027, 20988, 20003, 19071, 18138, 17672, 17439, 17206, 16973, 16856, 16740, 16623, 16507,
   16448, 16390, 16332, 16274, 16215, 16157, 16099, 16041, 15982, 15924, 15808, 15691, 15575,
   15342, 14876, 14410, 13944, 13478, 12545, 11464, 10848, 10233, 9925, 9617, 9463, 9309, 9155,
   9002, 8925, 8848, 8771, 8694, 8617, 8578, 8540, 8501, 8463, 8424, 8386, 8347, 8309, 8270,
   8232, 8193, 8155, 8116, 8078, 8039, 8001, 7962, 7924, 7885, 7847, 7809, 7771, 7732, 7694,
   7655, 7617, 7578, 7540, 7463, 7386, 7309, 7232, 7155, 7001, 6847, 6693, 6540, 6232, 5924,
   5309, 4078, 2847, 1616, 1000, 0]

def pts17 : List ℕ :=
  [168031, 168011, 167991, 167971, 167951, 167931, 167911, 167891, 167871, 167851, 167831,
   167811, 167703, 167509, 167315, 167218, 167169, 167121, 167072, 167023, 166926, 166732,
   166538, 166343, 166149, 165860, 165475, 165090, 164706, 164609, 164513, 164417, 164321,
   163936, 163552, 163167, 162782, 162306, 161739, 161172, 160605, 160321, 160250, 160179,
   160038, 159896, 159754, 159471, 158903, 158336, 157769, 157116, 156378, 155640, 154902,
   154533, 154348, 154164, 153979, 153794, 153425, 152687, 151949, 151211, 150395, 149500,
   148606, 147712, 147265, 147041, 146818, 146706, 146594, 146371, 145924, 145029, 144135,
   143241, 142278, 141246, 140214, 139182, 138666, 138408, 138150, 137892, 137634, 137118,
   136086, 135054, 134022, 132931, 131783, 130634, 129485, 128910, 128336, 128192, 128048,
   127904, 127761, 127187, 126038, 124889, 123740, 122545, 121302, 120060, 118818, 118196,
   117575, 117419, 117264, 116954, 116333, 115090, 113848, 112605, 111329, 110018, 108707,
   107397, 106741, 106413, 106086, 105758, 105430, 104775, 103464, 102153, 100843, 99511, 98158,
   96806, 95453, 94777, 94439, 94101, 93762, 93424, 93255, 93086, 92748, 91396, 90043, 88691,
   87331, 85964, 84597, 83230, 82546, 82204, 81863, 81521, 81179, 80837, 80496, 79129, 77761,
   76394, 75034, 73680, 72326, 70972, 70633, 70295, 69956, 69618, 69279, 68941, 68771, 68602,
   68264, 66910, 65556, 64202, 62868, 61554, 60240, 59583, 58926, 58597, 58269, 57940, 57776,
   57612, 57283, 56955, 56790, 56626, 56298, 55969, 55641, 54984, 53670, 52356, 51075, 49827,
   48579, 47955, 47331, 47019, 46707, 46395, 46239, 46083, 45926, 45770, 45458, 44834, 44210,
   43586, 42338, 41090, 39886, 38727, 37568, 36988, 36409, 36119, 35829, 35684, 35539, 35394,
   35250, 35105, 34960, 34815, 34670, 34091, 33801, 33511, 32932, 31773, 30614, 29509, 28458,
   27407, 26881, 26355, 26092, 25829, 25697, 25566, 25435, 25304, 25172, 25041, 24909, 24778,
   24515, 24253, 23990, 23727, 23595, 23464, 23202, 22150, 21099, 20104, 19164, 18225, 17755,
   17520, 17286, 17051, 16933, 16816, 16698, 16581, 16522, 16463, 16404, 16346, 16287, 16228,
   16169, 16111, 16052, 15993, 15876, 15758, 15641, 15407, 14937, 14468, 14233, 13998, 13528,
   12589, 11502, 10884, 10266, 9957, 9648, 9339, 9185, 9031, 8953, 8876, 8799, 8722, 8644, 8567,
   8528, 8490, 8451, 8413, 8374, 8335, 8296, 8258, 8219, 8181, 8142, 8104, 8065, 8026, 7987,
   7949, 7910, 7872, 7833, 7795, 7756, 7717, 7678, 7640, 7601, 7563, 7486, 7408, 7331, 7254,
   7177, 7022, 6868, 6714, 6560, 6251, 5942, 5324, 4089, 2853, 1618, 1000, 0]

def pts18 : List ℕ :=
  [183929, 183909, 183889, 183869, 183849, 183829, 183809, 183789, 183769, 183749, 183729,
   183709, 183602, 183408, 183214, 183116, 183019, 182922, 182825, 182631, 182437, 182242,
   182048, 181759, 181374, 180989, 180604, 180507, 180411, 180315, 180219, 179834, 179449,
   179064, 178680, 178203, 177635, 177066, 176498, 176214, 176072, 175930, 175787, 175645,
   175361, 174793, 174225, 173656, 173001, 172260, 171519, 170778, 170407, 170221, 170036,
   169943, 169850, 169665, 169295, 168554, 167813, 167072, 166251, 165350, 164450, 163550,
   163099, 162874, 162649, 162424, 162199, 161749, 160849, 159948, 159048, 158076, 157034,
   155991, 154948, 154427, 154166, 153906, 153645, 153384, 152863, 151820, 150778, 149735,
   148631, 147465, 146299, 145134, 144551, 144259, 143968, 143822, 143676, 143385, 142802,
   141637, 140471, 139305, 138089, 136822, 135555, 134288, 133654, 133021, 132704, 132387,
   131754, 130487, 129220, 127953, 126647, 125303, 123958, 122613, 121941, 121605, 121269,
   121100, 120932, 120596, 119924, 118579, 117234, 115890, 114519, 113121, 111723, 110326,
   109627, 109277, 108928, 108578, 108229, 107880, 107531, 106133, 104736, 103338, 101927,
   100503, 99078, 97654, 96942, 96586, 96230, 95873, 95517, 95161, 94805, 93381, 91956, 90532,
   89107, 87682, 86257, 84832, 84119, 83763, 83407, 83050, 82694, 82516, 82338, 81982, 80557,
   79132, 77707, 76295, 74895, 73496, 72097, 71747, 71397, 71047, 70697, 70347, 69997, 69298,
   68598, 67898, 66499, 65100, 63726, 62378, 61030, 60355, 59681, 59344, 59007, 58670, 58501,
   58333, 57996, 57659, 56985, 56311, 55637, 54288, 52940, 51630, 50357, 49084, 48447, 47811,
   47492, 47174, 46856, 46697, 46538, 46378, 46219, 45901, 45583, 45265, 45105, 44946, 44628,
   43992, 42719, 41446, 40222, 39046, 37870, 37282, 36694, 36400, 36106, 35959, 35812, 35665,
   35518, 35371, 35224, 35077, 34930, 34636, 34342, 33754, 33166, 31990, 30814, 29695, 28633,
   27571, 27040, 26509, 26243, 25978, 25845, 25712, 25579, 25447, 25314, 25181, 25048, 24916,
   24650, 24385, 24119, 23854, 23721, 23588, 23323, 22261, 21199, 20195, 19249, 18303, 17830,
   17594, 17358, 17121, 17003, 16885, 16766, 16648, 16589, 16530, 16471, 16412, 16352, 16293,
   16234, 16175, 16116, 16057, 15939, 15821, 15703, 15467, 14994, 14521, 14048, 13575, 12630,
   11537, 10917, 10297, 9987, 9677, 9367, 9212, 9058, 8980, 8903, 8825, 8748, 8670, 8593, 8554,
   8515, 8476, 8438, 8399, 8360, 8321, 8283, 8244, 8205, 8166, 8128, 8089, 8050, 8011, 7973,
   7934, 7895, 7856, 7818, 7779, 7740, 7701, 7663, 7624, 7585, 7508, 7430, 7353, 7275, 7198,
   7043, 6888, 6733, 6578, 6268, 5958, 5339, 4099, 2859, 1620, 1000, 0]

def pts19 : List ℕ :=
  [200535, 200515, 200495, 200475, 200455, 200435, 200415, 200395, 200375, 200355, 200335,
   200315, 200207, 200013, 199819, 199722, 199625, 199528, 199431, 199236, 199042, 198848,
   198654, 198364, 197979, 197594, 197209, 197112, 197016, 196920, 196824, 196631, 196439,
   196054, 195669, 195284, 194806, 194237, 193668, 193098, 192955, 192813, 192671, 192529,
   191960, 191390, 190821, 190252, 189595, 188851, 188107, 187363, 186991, 186805, 186619,
   186433, 186247, 185875, 185131, 184387, 183643, 182819, 181913, 181007, 180101, 179648,
   179422, 179196, 179082, 178969, 178743, 178290, 177384, 176478, 175572, 174593, 173541,
   172489, 171437, 170911, 170648, 170385, 170122, 169859, 169333, 168281, 167228, 166176,
   165060, 163879, 162699, 161518, 160928, 160338, 160190, 160042, 159747, 159157, 157977,
   156796, 155616, 154381, 153092, 151804, 150515, 149870, 149226, 149064, 148903, 148742,
   148581, 147937, 146649, 145360, 144071, 142739, 141364, 139989, 138614, 137926, 137239,
   136895, 136551, 135864, 134489, 133114, 131739, 130333, 128895, 127458, 126020, 125301,
   124941, 124582, 124402, 124222, 123863, 123144, 121707, 120269, 118831, 117374, 115898,
   114422, 112947, 112209, 111840, 111471, 111102, 110733, 110364, 109995, 108519, 107043,
   105567, 104084, 102595, 101106, 99617, 98872, 98500, 98128, 97755, 97383, 97011, 96639,
   95149, 93660, 92171, 90688, 89211, 87734, 86257, 85518, 85149, 84780, 84410, 84041, 83672,
   83303, 81826, 80350, 78873, 77414, 75974, 74534, 73095, 72735, 72375, 72015, 71655, 71295,
   70935, 70575, 70215, 68775, 67335, 65895, 64486, 63107, 61729, 61039, 60350, 60005, 59660,
   59315, 59143, 58971, 58626, 58282, 58109, 57937, 57593, 57248, 56903, 56214, 54835, 53457,
   52120, 50825, 49530, 48882, 48235, 47911, 47587, 47263, 47101, 46940, 46778, 46616, 46293,
   45969, 45646, 45322, 44998, 44351, 43056, 41761, 40518, 39327, 38136, 37540, 36945, 36647,
   36349, 36200, 36051, 35902, 35754, 35605, 35456, 35307, 35158, 34563, 34265, 33967, 33372,
   32181, 30990, 29859, 28788, 27716, 27180, 26644, 26376, 26108, 25974, 25840, 25706, 25573,
   25439, 25305, 25171, 25037, 24769, 24501, 23965, 23429, 22358, 21286, 20275, 19324, 18372,
   17896, 17658, 17421, 17183, 17064, 16945, 16826, 16707, 16647, 16588, 16529, 16470, 16410,
   16351, 16291, 16232, 16172, 16113, 15994, 15875, 15756, 15519, 15043, 14568, 14092, 13616,
   12665, 11568, 10946, 10325, 10014, 9703, 9392, 9236, 9081, 9003, 8925, 8847, 8770, 8692,
   8653, 8614, 8575, 8536, 8497, 8459, 8420, 8381, 8342, 8303, 8264, 8225, 8186, 8148, 8109,
   8070, 8031, 7993, 7954, 7915, 7876, 7838, 7799, 7760, 7721, 7682, 7643, 7604, 7527, 7449,
   7371, 7293, 7216, 7060, 6905, 6750, 6595, 6284, 5973, 5352, 4108, 2865, 1622, 1000, 0]

def pts20 : List ℕ :=
  [237636, 236636, 236361, 235813, 235539, 235345, 235151, 235053, 234956, 234859, 234762,
   234568, 234374, 234180, 233986, 233696, 233311, 232925, 232540, 232443, 232347, 232298,
   232250, 232154, 231769, 231384, 230998, 230613, 230135, 229564, 228992, 228421, 228278,
   228135, 227992, 227850, 227279, 226708, 226137, 225566, 224906, 224158, 223409, 222661,
   222286, 222099, 221912, 221538, 221164, 220416, 219667, 218919, 218087, 217172, 216257,
   215342, 214885, 214656, 214428, 214199, 213970, 213513, 212598, 211683, 210768, 209777,
   208709, 207641, 206573, 206039, 205772, 205505, 205238, 204971, 204437, 203369, 202301,
   201233, 200096, 198890, 197685, 196479, 195876, 195575, 195274, 195123, 194972, 194671,
   194068, 192863, 191657, 190452, 189186, 187860, 186535, 185209, 184546, 183884, 183718,
   183552, 183221, 182558, 181233, 179907, 178582, 177206, 175780, 174353, 172927, 172214,
   171501, 171322, 171144, 170966, 170788, 170075, 168648, 167222, 165796, 164330, 162824,
   161317, 159811, 159058, 158305, 158116, 157928, 157740, 157552, 156799, 155293, 153787,
   152280, 150745, 149181, 147617, 146053, 145271, 144880, 144489, 144293, 144097, 143706,
   142924, 141360, 139796, 138232, 136650, 135051, 133451, 131852, 131052, 130652, 130252,
   129852, 129452, 129052, 128653, 127054, 125454, 123855, 122249, 120638, 119026, 117415,
   116609, 116206, 115803, 115400, 114997, 114594, 114192, 112580, 110969, 109357, 107752,
   106152, 104551, 102951, 102151, 101751, 101351, 100951, 100551, 99751, 98951, 98151, 96551,
   94951, 93368, 91802, 90236, 88671, 87888, 87496, 87105, 86713, 86322, 85540, 84757, 83974,
   82408, 80843, 79305, 77797, 76288, 74779, 74402, 74025, 73648, 73271, 72893, 72516, 72327,
   72139, 72044, 71950, 71762, 70253, 68745, 67236, 65767, 64336, 62906, 62191, 61476, 61118,
   60761, 60403, 60224, 60046, 59867, 59688, 59331, 59152, 58973, 58616, 58258, 57900, 57185,
   55755, 54325, 52944, 51612, 50280, 49614, 48948, 48615, 48282, 47949, 47782, 47616, 47449,
   47283, 46950, 46617, 46284, 45951, 45618, 44953, 43621, 42289, 41015, 39799, 38583, 37974,
   37366, 37062, 36758, 36606, 36454, 36302, 36150, 35998, 35846, 35694, 35542, 35238, 34934,
   34326, 33718, 32502, 31286, 30134, 29046, 27958, 27414, 26871, 26599, 26327, 26191, 26055,
   25919, 25783, 25647, 25511, 25375, 25239, 24967, 24695, 24423, 24151, 23608, 23064, 22520,
   21433, 20409, 19448, 18488, 18007, 17767, 17527, 17287, 17167, 17047, 16927, 16807, 16747,
   16687, 16627, 16567, 16506, 16446, 16386, 16326, 16266, 16206, 16086, 15966, 15846, 15606,
   15126, 14646, 14405, 14165, 13685, 12725, 11620, 10995, 10371, 10058, 9746, 9433, 9277, 9121,
   9042, 8964, 8886, 8808, 8730, 8691, 8652, 8613, 8574, 8535, 8496, 8457, 8418, 8379, 8340,
   8301, 8262, 8223, 8184, 8145, 8106, 8067, 8028, 7989, 7950, 7911, 7872, 7832, 7793, 7754,
   7715, 7676, 7637, 7559, 7481, 7403, 7325, 7247, 7090, 6934, 6778, 6622, 6309, 5997, 5373,
   4124, 2874, 1625, 1000, 0]

def pts21 : List ℕ :=
  [275790, 274790, 274515, 273967, 273693, 273499, 273305, 273208, 273159, 273111, 273086,
   273062, 273014, 272917, 272723, 272529, 272335, 272141, 271851, 271465, 271080, 270694,
   270597, 270501, 270452, 270404, 270308, 269923, 269537, 269151, 268765, 268286, 267714,
   267142, 266569, 266283, 266140, 265997, 265710, 265424, 264852, 264279, 263707, 263045,
   262293, 261541, 260789, 260413, 260225, 260037, 259661, 259285, 258533, 257781, 257029,
   256191, 255269, 254347, 253425, 252964, 252733, 252503, 252387, 252272, 252042, 251581,
   250659, 249736, 248814, 247813, 246732, 245652, 244571, 244030, 243760, 243490, 243220,
   242950, 242410, 241329, 240248, 239168, 238014, 236789, 235563, 234338, 233725, 233418,
   233112, 232958, 232805, 232499, 231886, 230661, 229435, 228209, 226919, 225564, 224209,
   222854, 222176, 221837, 221498, 221159, 220820, 220143, 218788, 217433, 216078, 214666,
   213199, 211731, 210263, 209529, 208796, 208429, 208062, 207328, 205860, 204392, 202925,
   201410, 199848, 198286, 196725, 195944, 195163, 194967, 194772, 194577, 194382, 193601,
   192039, 190478, 188916, 187317, 185681, 184044, 182408, 181590, 180772, 180363, 179954,
   179545, 179136, 177499, 175863, 174227, 172564, 170873, 169183, 167493, 166648, 165803,
   165591, 165380, 165169, 164958, 164113, 162423, 160732, 159042, 157336, 155613, 153890,
   152167, 151305, 150874, 150444, 150013, 149582, 148721, 146998, 145276, 143553, 141824,
   140090, 138356, 136622, 135755, 135321, 134888, 134454, 134021, 133804, 133587, 133154,
   131420, 129686, 127952, 126224, 124500, 122777, 121053, 120191, 119760, 119330, 118899,
   118468, 118037, 117607, 115883, 114160, 112436, 110729, 109038, 107347, 105655, 104809,
   104386, 103964, 103541, 103118, 102695, 102273, 100582, 98890, 97199, 95535, 93897, 92259,
   90621, 89802, 89392, 88983, 88573, 88164, 87959, 87754, 87345, 85707, 84069, 82431, 80829,
   79265, 77700, 76136, 75744, 75353, 74962, 74571, 74180, 73789, 73398, 73007, 72615, 72224,
   71442, 69878, 68313, 66795, 65323, 63851, 63115, 62380, 62012, 61644, 61276, 61092, 60908,
   60724, 60540, 60172, 59804, 59436, 58700, 57964, 56492, 55020, 53604, 52242, 50880, 50199,
   49519, 49178, 48838, 48497, 48327, 48157, 47986, 47816, 47476, 47135, 46795, 46624, 46454,
   46114, 45434, 44072, 42710, 41411, 40175, 38939, 38320, 37702, 37393, 37084, 36929, 36775,
   36620, 36466, 36311, 36157, 36002, 35848, 35539, 35230, 35075, 34920, 34611, 33993, 32757,
   31521, 30352, 29252, 28151, 27601, 27051, 26775, 26500, 26362, 26225, 26087, 25950, 25812,
   25675, 25537, 25400, 25125, 24850, 24300, 23750, 23199, 22649, 21549, 20515, 19547, 18579,
   18095, 17853, 17611, 17369, 17248, 17127, 17006, 16885, 16824, 16764, 16703, 16643, 16582,
   16522, 16461, 16401, 16340, 16280, 16159, 16038, 15917, 15675, 15191, 14708, 14224, 13740,
   12772, 11661, 11034, 10407, 10093, 9779, 9465, 9308, 9152, 9073, 8995, 8916, 8838, 8759,
   8720, 8681, 8642, 8603, 8564, 8525, 8485, 8446, 8407, 8368, 8328, 8289, 8250, 8230, 8211,
   8191, 8171, 8151, 8132, 8112, 8093, 8054, 8015, 7976, 7937, 7898, 7858, 7819, 7780, 7741,
   7701, 7662, 7623, 7584, 7505, 7427, 7349, 7271, 7114, 6957, 6800, 6644, 6330, 6017, 5390,
   4136, 2881, 1627, 1000, 0]

def pts22 : List ℕ :=
  [316768, 315768, 315493, 314945, 314671, 314477, 314283, 314186, 314089, 313992, 313895,
   313701, 313507, 313313, 313119, 312829, 312443, 312057, 311864, 311671, 311478, 311285,
   310900, 310514, 310128, 309742, 309262, 308689, 308115, 307542, 307255, 307183, 307111,
   307039, 306968, 306681, 306394, 305821, 305247, 304674, 304010, 303255, 302500, 301745,
   301367, 301272, 301178, 300990, 300801, 300612, 300235, 299480, 298725, 297970, 297129,
   296201, 295273, 294345, 293881, 293649, 293417, 293185, 292953, 292489, 291561, 290633,
   289705, 288695, 287604, 286513, 285422, 284876, 284603, 284331, 284058, 283785, 283240,
   282149, 281058, 279968, 278801, 277559, 276317, 275075, 274454, 274143, 273833, 273677,
   273522, 273212, 272591, 271349, 270107, 268865, 267555, 266175, 264796, 263417, 262727,
   262382, 262037, 261692, 261347, 260658, 259279, 257899, 256520, 255079, 253578, 252076,
   250575, 249824, 249448, 249073, 248885, 248697, 248322, 247571, 246070, 244568, 243066,
   241512, 239904, 238297, 236689, 235885, 235082, 234680, 234278, 233474, 231867, 230259,
   228652, 227000, 225304, 223609, 221913, 221065, 220217, 219793, 219369, 218521, 216826,
   215130, 213434, 211704, 209938, 208173, 206407, 205524, 204642, 204421, 204200, 203979,
   203759, 202876, 201111, 199346, 197580, 195790, 193974, 192158, 190342, 189434, 188526,
   188072, 187618, 186710, 184895, 183079, 181263, 179432, 177586, 175739, 173893, 172970,
   172508, 172047, 171585, 171123, 170200, 168354, 166508, 164661, 162810, 160953, 159097,
   157240, 156311, 155847, 155383, 154919, 154455, 153991, 153527, 151670, 149813, 147957,
   146105, 144258, 142412, 140565, 139641, 139179, 138718, 138256, 137794, 137563, 137332,
   136871, 135025, 133178, 131331, 129500, 127683, 125866, 124050, 123141, 122687, 122233,
   121779, 121325, 120417, 119508, 118600, 116783, 114967, 113175, 111408, 109642, 107875,
   106991, 106549, 106108, 105666, 105225, 104342, 103458, 102575, 100808, 99041, 97309, 95611,
   93914, 92216, 91367, 90942, 90518, 90093, 89669, 89245, 88821, 87972, 87123, 85425, 83728,
   82074, 80463, 78853, 77243, 76840, 76437, 76034, 75632, 75229, 74827, 74625, 74424, 74022,
   73619, 73216, 72411, 70801, 69191, 67633, 66127, 64621, 63868, 63115, 62738, 62362, 61985,
   61797, 61609, 61420, 61232, 60856, 60479, 60103, 59350, 58597, 57091, 55585, 54139, 52753,
   51368, 50675, 49982, 49635, 49289, 48942, 48769, 48596, 48422, 48249, 47903, 47556, 47210,
   46517, 45824, 44438, 43052, 41733, 40480, 39227, 38600, 37974, 37661, 37348, 37191, 37035,
   36878, 36722, 36565, 36408, 36251, 36095, 35782, 35469, 35312, 35155, 34842, 34216, 32963,
   31711, 30529, 29418, 28307, 27751, 27196, 26918, 26641, 26502, 26363, 26224, 26086, 25947,
   25808, 25669, 25530, 25252, 24975, 24697, 24419, 24280, 24141, 23864, 22753, 21642, 20600,
   19626, 18652, 18165, 17922, 17679, 17435, 17313, 17192, 17070, 16948, 16887, 16826, 16765,
   16705, 16644, 16583, 16522, 16461, 16400, 16339, 16218, 16096, 15974, 15731, 15244, 14757,
   14270, 13783, 12810, 11694, 11065, 10436, 10121, 9807, 9492, 9335, 9178, 9099, 9020, 8941,
   8863, 8784, 8744, 8705, 8665, 8626, 8587, 8548, 8508, 8469, 8429, 8390, 8350, 8311, 8272,
   8252, 8233, 8213, 8193, 8173, 8154, 8134, 8115, 8076, 8036, 7997, 7958, 7919, 7879, 7840,
   7800, 7761, 7721, 7682, 7643, 7604, 7525, 7447, 7368, 7290, 7211, 7132, 6975, 6818, 6661,
   6346, 6032, 5403, 4145, 2887, 1629, 1000, 0]

def pts23 : List ℕ :=
  [360564, 359564, 359290, 358742, 358468, 358274, 358080, 357983, 357934, 357886, 357861,
   357837, 357789, 357692, 357498, 357304, 357110, 356916, 356626, 356240, 355854, 355468,
   355371, 355275, 355226, 355178, 355082, 354696, 354309, 353923, 353537, 353057, 352483,
   351908, 351334, 351190, 351046, 350902, 350759, 350185, 349611, 349036, 348462, 347796,
   347039, 346281, 345524, 345145, 344956, 344767, 344577, 344388, 344009, 343252, 342495,
   341738, 340893, 339960, 339027, 338094, 337627, 337394, 337161, 337044, 336927, 336694,
   336228, 335296, 334363, 333430, 332414, 331314, 330215, 329115, 328565, 328290, 328016,
   327741, 327466, 326917, 325817, 324718, 323618, 322441, 321186, 319930, 318675, 318047,
   317733, 317419, 317105, 316791, 316164, 314909, 313653, 312398, 311070, 309671, 308272,
   306873, 306173, 305823, 305473, 305123, 304773, 304074, 302675, 301275, 299876, 298412,
   296882, 295352, 293822, 293057, 292675, 292293, 292101, 291910, 291528, 290763, 289233,
   287703, 286174, 284586, 282941, 281295, 279650, 278827, 278415, 278004, 277798, 277592,
   277181, 276359, 274713, 273068, 271422, 269727, 267982, 266236, 264491, 263618, 262746,
   262636, 262527, 262309, 261873, 261000, 259255, 257510, 255764, 253978, 252149, 250321,
   248492, 247578, 247121, 246664, 246207, 245750, 244836, 243007, 241179, 239350, 237489,
   235595, 233702, 231808, 230861, 229914, 229677, 229440, 229203, 228967, 228020, 226126,
   224232, 222338, 220421, 218480, 216538, 214597, 213626, 212656, 212413, 212170, 211927,
   211685, 210715, 208774, 206833, 204892, 202936, 200966, 198997, 197027, 196042, 195057,
   194810, 194564, 194318, 194072, 193088, 191118, 189148, 187178, 185204, 183224, 181245,
   179266, 178276, 177781, 177286, 176791, 176296, 175307, 173328, 171348, 169369, 167394,
   165424, 163454, 161484, 160499, 160006, 159514, 159021, 158529, 158282, 158036, 157544,
   155574, 153604, 151634, 149678, 147736, 145795, 143853, 142882, 142396, 141911, 141425,
   140940, 140697, 140454, 139969, 138028, 136086, 134144, 132226, 130331, 128436, 126541,
   125594, 125120, 124647, 124173, 123699, 123225, 122752, 120857, 118962, 117067, 115205,
   113375, 111545, 109715, 108800, 108343, 107886, 107428, 106971, 106742, 106513, 106056,
   104226, 102396, 100566, 98778, 97030, 95283, 93535, 92661, 92224, 91788, 91351, 90914, 90477,
   90041, 89167, 88293, 86546, 84799, 83101, 81452, 79804, 78155, 77743, 77331, 76919, 76507,
   76095, 75683, 75271, 74859, 74446, 74034, 73210, 71562, 69913, 68322, 66788, 65254, 64487,
   63720, 63336, 62953, 62569, 62377, 62186, 61994, 61802, 61419, 61035, 60652, 60460, 60268,
   59885, 59118, 57584, 56049, 54579, 53173, 51768, 51065, 50362, 50010, 49659, 49307, 49131,
   48956, 48780, 48604, 48253, 47901, 47550, 46847, 46144, 44738, 43332, 41996, 40729, 39463,
   38830, 38197, 37880, 37564, 37405, 37247, 37089, 36931, 36772, 36614, 36455, 36297, 35980,
   35664, 35505, 35347, 35031, 34398, 33132, 31866, 30673, 29554, 28434, 27874, 27315, 27035,
   26755, 26615, 26475, 26335, 26196, 26056, 25916, 25776, 25636, 25356, 25076, 24796, 24516,
   24236, 23957, 22838, 21718, 20669, 19691, 18712, 18222, 17977, 17733, 17488, 17366, 17244,
   17121, 16999, 16938, 16877, 16816, 16755, 16693, 16632, 16571, 16510, 16448, 16387, 16265,
   16142, 16020, 15776, 15286, 14797, 14552, 14307, 13818, 12840, 11720, 11089, 10459, 10143,
   9828, 9513, 9355, 9198, 9119, 9040, 8961, 8882, 8803, 8763, 8724, 8684, 8645, 8606, 8567,
   8527, 8488, 8448, 8409, 8369, 8330, 8310, 8290, 8270, 8251, 8231, 8211, 8191, 8172, 8152,
   8132, 8093, 8053, 8014, 7975, 7936, 7896, 7857, 7817, 7778, 7738, 7699, 7659, 7620, 7541,
   7462, 7383, 7305, 7226, 7147, 6990, 6832, 6675, 6359, 6044, 5414, 4153, 2892, 1631, 1000, 0]

def pts24 : List ℕ :=
  [407187, 406187, 405090, 404896, 404702, 404605, 404556, 404508, 404483, 404459, 404411,
   404314, 404120, 403926, 403732, 403538, 403248, 402862, 402476, 402090, 401993, 401896,
   401847, 401799, 401703, 401317, 400931, 400545, 400159, 399678, 399103, 398528, 397952,
   397808, 397664, 397520, 397377, 396802, 396227, 395652, 395077, 394409, 393650, 392891,
   392132, 391752, 391562, 391372, 390992, 390613, 389854, 389095, 388335, 387487, 386550,
   385614, 384677, 384208, 383974, 383740, 383505, 383271, 382803, 381866, 380929, 379993,
   378971, 377865, 376758, 375652, 375098, 374821, 374545, 374406, 374268, 373992, 373439,
   372332, 371226, 370119, 368933, 367666, 366400, 365133, 364499, 364182, 363866, 363707,
   363549, 363233, 362600, 361333, 360067, 358800, 357459, 356043, 354627, 353211, 352503,
   352149, 351795, 351441, 351087, 350379, 348963, 347547, 346131, 344646, 343093, 341540,
   339987, 339210, 338433, 337656, 336880, 335327, 333773, 332220, 330605, 328928, 327250,
   325573, 324734, 324315, 323896, 323686, 323476, 323057, 322218, 320541, 318864, 317187,
   315454, 313667, 311880, 310093, 309199, 308306, 307859, 307412, 306519, 304732, 302945,
   301158, 299324, 297442, 295561, 293679, 292738, 291798, 291680, 291562, 291327, 290857,
   289916, 288035, 286153, 284272, 282351, 280391, 278431, 276471, 275491, 274511, 274021,
   273531, 272551, 270591, 268631, 266671, 264680, 262658, 260637, 258615, 257604, 256593,
   256340, 256087, 255834, 255582, 254571, 252550, 250528, 248506, 246462, 244396, 242330,
   240264, 239230, 238197, 237938, 237680, 237422, 237164, 236131, 234065, 231999, 229932,
   227853, 225760, 223667, 221573, 220526, 219480, 219218, 218956, 218694, 218433, 217387,
   215294, 213201, 211108, 209010, 206908, 204806, 202704, 201652, 201126, 200601, 200338,
   200075, 199550, 199024, 198499, 196397, 194295, 192193, 190095, 188001, 185908, 183815,
   182768, 182244, 181721, 181197, 180674, 180151, 179628, 177535, 175441, 173348, 171268,
   169201, 167135, 165068, 164034, 163517, 163001, 162484, 161967, 161708, 161450, 160934,
   158868, 156801, 154734, 152690, 150667, 148645, 146622, 145611, 145105, 144600, 144094,
   143588, 143082, 142577, 140555, 138533, 136510, 134518, 132557, 130596, 128635, 127654,
   127164, 126674, 126183, 125693, 125203, 124713, 122752, 120791, 118830, 116908, 115025,
   113142, 111259, 110317, 109846, 109376, 108905, 108434, 107963, 107492, 105609, 103726,
   101843, 100007, 98218, 96429, 94640, 93745, 93298, 92851, 92403, 91956, 91732, 91508, 91284,
   91061, 89272, 87483, 85694, 83959, 82279, 80598, 78918, 78498, 78078, 77658, 77238, 76818,
   76398, 75978, 75558, 75137, 74717, 73877, 72197, 70517, 68898, 67340, 65782, 65003, 64225,
   63835, 63446, 63056, 62861, 62667, 62472, 62277, 61888, 61498, 61109, 60914, 60719, 60330,
   59552, 57994, 56436, 54946, 53523, 52101, 51389, 50678, 50322, 49966, 49610, 49432, 49255,
   49077, 48899, 48544, 48188, 47833, 47477, 47121, 46410, 44987, 43565, 42215, 40937, 39660,
   39021, 38382, 38062, 37743, 37583, 37424, 37264, 37105, 36945, 36785, 36625, 36466, 36146,
   35827, 35667, 35507, 35188, 34550, 33272, 31995, 30793, 29666, 28540, 27976, 27413, 27131,
   26850, 26709, 26568, 26427, 26287, 26146, 26005, 25864, 25724, 25442, 25161, 24879, 24597,
   24315, 24034, 22908, 21782, 20727, 19744, 18761, 18270, 18024, 17779, 17533, 17410, 17287,
   17164, 17041, 16979, 16918, 16857, 16796, 16734, 16673, 16611, 16550, 16488, 16427, 16304,
   16181, 16058, 15813, 15321, 14830, 14339, 13848, 12865, 11742, 11110, 10478, 10162, 9846,
   9530, 9372, 9214, 9135, 9056, 8977, 8898, 8819, 8779, 8740, 8700, 8661, 8621, 8582, 8542,
   8503, 8463, 8424, 8384, 8345, 8325, 8305, 8285, 8266, 8246, 8226, 8206, 8187, 8167, 8147,
   8108, 8068, 8029, 7989, 7950, 7910, 7871, 7831, 7792, 7752, 7713, 7673, 7634, 7555, 7476,
   7397, 7318, 7239, 7160, 7002, 6844, 6687, 6371, 6055, 5423, 4159, 2896, 1632, 1000, 0]

def pts25 : List ℕ :=
  [454575, 454550, 454525, 454500, 454476, 454451, 454426, 454401, 454376, 454351, 454326,
   454301, 454192, 453998, 453804, 453707, 453658, 453610, 453585, 453561, 453513, 453417,
   453223, 453029, 452835, 452642, 452352, 451966, 451580, 451194, 451097, 451001, 450952,
   450904, 450808, 450422, 450036, 449650, 449264, 448783, 448207, 447632, 447057, 446769,
   446625, 446481, 445906, 445331, 444755, 444180, 443512, 442752, 441991, 441231, 440851,
   440661, 440471, 440280, 440090, 439710, 438950, 438190, 437429, 436579, 435640, 434700,
   433761, 433291, 433056, 432821, 432586, 432351, 431882, 430942, 430003, 429063, 428038,
   426926, 425815, 424703, 424147, 423869, 423591, 423313, 423035, 422480, 421368, 420257,
   419145, 417952, 416677, 415402, 414127, 413489, 413170, 412851, 412532, 412213, 411576,
   410301, 409026, 407751, 406399, 404970, 403541, 402112, 401397, 401040, 400683, 400504,
   400325, 399968, 399254, 397825, 396396, 394967, 393466, 391894, 390323, 388751, 387965,
   387179, 386393, 385607, 384035, 382463, 380891, 379253, 377550, 375847, 374144, 373292,
   372866, 372441, 372015, 371589, 370738, 369035, 367332, 365629, 363867, 362046, 360225,
   358404, 357493, 357037, 356582, 356354, 356126, 355671, 354761, 352940, 351119, 349298,
   347425, 345500, 343574, 341649, 340686, 339724, 339483, 339242, 338761, 337798, 335873,
   333948, 332022, 330052, 328037, 326022, 324007, 323000, 321993, 321489, 320985, 319978,
   317963, 315948, 313933, 311881, 309792, 307703, 305613, 304568, 303524, 303262, 303001,
   302740, 302479, 301435, 299346, 297257, 295168, 293049, 290902, 288754, 286607, 285533,
   284459, 283922, 283385, 282312, 280164, 278017, 275869, 273701, 271511, 269322, 267132,
   266037, 264943, 264669, 264395, 263848, 263300, 262753, 260564, 258374, 256185, 253982,
   251767, 249553, 247338, 246230, 245123, 244569, 244015, 242908, 240693, 238478, 236263,
   234044, 231820, 229597, 227374, 226262, 225150, 224594, 224038, 222927, 220703, 218480,
   216256, 214037, 211822, 209607, 207392, 206284, 205730, 205177, 204623, 204069, 202962,
   200747, 198531, 196316, 194114, 191924, 189734, 187544, 186449, 185901, 185354, 184806,
   184259, 183985, 183711, 183164, 180975, 178785, 176595, 174426, 172278, 170130, 167981,
   166907, 166370, 165833, 165296, 164759, 164222, 163685, 161537, 159389, 157241, 155122,
   153032, 150942, 148852, 147807, 147284, 146762, 146239, 145717, 145455, 145194, 144672,
   142582, 140492, 138402, 136349, 134333, 132317, 130301, 129293, 128789, 128285, 127781,
   127277, 126773, 126269, 125261, 124253, 122237, 120221, 118249, 116322, 114395, 112468,
   111504, 111022, 110541, 110059, 109578, 109337, 109096, 108615, 107651, 106688, 104761,
   102834, 100959, 99135, 97312, 95489, 94577, 94121, 93666, 93210, 92754, 92298, 91842, 90019,
   88196, 86372, 84608, 82902, 81195, 79489, 79062, 78636, 78209, 77783, 77356, 76930, 76716,
   76503, 76077, 75224, 74371, 72665, 70959, 69318, 67741, 66165, 65376, 64588, 64194, 63800,
   63406, 63209, 63012, 62814, 62617, 62223, 61829, 61435, 61041, 60647, 59859, 58283, 56706,
   55200, 53764, 52329, 51611, 50893, 50534, 50175, 49816, 49636, 49457, 49277, 49098, 48739,
   48380, 48021, 47662, 47303, 46586, 45150, 43714, 42353, 41067, 39781, 39138, 38495, 38173,
   37852, 37691, 37530, 37369, 37209, 37048, 36887, 36726, 36566, 36244, 35923, 35280, 34637,
   33350, 32064, 30856, 29724, 28592, 28026, 27461, 27178, 26895, 26753, 26612, 26470, 26329,
   26187, 26046, 25904, 25763, 25480, 25197, 24914, 24631, 24066, 23500, 22934, 21803, 20744,
   19758, 18772, 18279, 18033, 17787, 17540, 17417, 17294, 17170, 17047, 16924, 16862, 16801,
   16739, 16677, 16615, 16554, 16492, 16431, 16308, 16184, 16061, 15815, 15322, 14829, 14582,
   14336, 13844, 12858, 11734, 11102, 10471, 10155, 9839, 9523, 9365, 9208, 9050, 8971, 8892,
   8813, 8734, 8655, 8615, 8576, 8536, 8497, 8457, 8418, 8378, 8339, 8299, 8260, 8220, 8181,
   8141, 8102, 8062, 8023, 7984, 7945, 7905, 7866, 7826, 7787, 7708, 7629, 7550, 7471, 7392,
   7314, 7156, 6998, 6840, 6683, 6367, 6051, 5420, 4157, 2894, 1631, 1000, 0]

def pts26 : List ℕ :=
  [506807, 506786, 506764, 506743, 506721, 506700, 506678, 506657, 506635, 506614, 506592,
   506571, 506463, 506269, 506076, 505979, 505882, 505785, 505688, 505494, 505301, 505107,
   504913, 504623, 504237, 503851, 503658, 503465, 503272, 503079, 502692, 502306, 501920,
   501534, 501053, 500477, 499901, 499325, 499181, 499037, 498893, 498749, 498461, 498173,
   497597, 497021, 496445, 495777, 495015, 494253, 493491, 493110, 493014, 492919, 492824,
   492729, 492348, 491968, 491206, 490444, 489682, 488830, 487888, 486945, 486003, 485531,
   485413, 485295, 485177, 485060, 484589, 484118, 483175, 482233, 481291, 480261, 479144,
   478028, 476911, 476352, 476073, 475794, 475515, 475236, 474678, 473561, 472445, 471328,
   470128, 468845, 467562, 466278, 465636, 465315, 464995, 464674, 464353, 463712, 462429,
   461145, 459862, 458500, 457059, 455618, 454177, 453456, 453096, 452736, 452555, 452375,
   452015, 451295, 449854, 448413, 446972, 445457, 443868, 442279, 440690, 439895, 439498,
   439101, 438902, 438703, 438306, 437512, 435923, 434334, 432745, 431087, 429361, 427635,
   425909, 425045, 424182, 423319, 422456, 420730, 419004, 417278, 415489, 413638, 411786,
   409935, 409009, 408546, 408083, 407620, 407157, 406232, 404380, 402529, 400677, 398769,
   396805, 394841, 392877, 391895, 391404, 390913, 390422, 389931, 388949, 386984, 385020,
   383056, 381042, 378979, 376915, 374852, 373820, 372789, 372273, 371757, 370725, 368662,
   366598, 364535, 362429, 360280, 358131, 355983, 354908, 353834, 353297, 352760, 351686,
   349537, 347388, 345240, 343056, 340837, 338618, 336398, 335288, 334179, 333624, 333069,
   331960, 329741, 327522, 325303, 323056, 320781, 318507, 316232, 315095, 313958, 313389,
   312820, 311683, 309409, 307134, 304860, 302565, 300251, 297937, 295622, 294465, 293308,
   293018, 292729, 292440, 292151, 290994, 288679, 286365, 284051, 281724, 279386, 277048,
   274709, 273540, 272371, 271786, 271201, 270032, 267694, 265356, 263017, 260675, 258329,
   255982, 253636, 252462, 251289, 250995, 250702, 250116, 249529, 248943, 246596, 244250,
   241903, 239561, 237222, 234884, 232545, 231376, 230207, 229622, 229037, 227868, 225530,
   223191, 220853, 218526, 216212, 213897, 211582, 210425, 209846, 209268, 208689, 208110,
   207820, 207531, 206953, 204638, 202324, 200009, 197714, 195439, 193164, 190890, 189752,
   189183, 188615, 188046, 187477, 187192, 186908, 186340, 184065, 181790, 179515, 177267,
   175048, 172828, 170608, 169498, 168943, 168388, 167833, 167278, 166723, 166168, 163949,
   161729, 159509, 157324, 155175, 153025, 150876, 149801, 149263, 148726, 148188, 147651,
   147114, 146577, 145502, 144427, 142278, 140128, 138021, 135956, 133892, 131827, 130794,
   130278, 129762, 129246, 128730, 128214, 127698, 126665, 125633, 123568, 121504, 119489,
   117523, 115557, 113591, 112608, 112116, 111625, 111133, 110642, 110151, 109660, 108677,
   107694, 105728, 103762, 101852, 99999, 98145, 96291, 95364, 94901, 94438, 93974, 93511,
   93279, 93047, 92815, 92584, 90730, 88876, 87023, 85231, 83502, 81773, 80043, 79610, 79178,
   78746, 78314, 77881, 77449, 77017, 76585, 76152, 75720, 74856, 73126, 71397, 69736, 68142,
   66549, 65752, 64955, 64556, 64158, 63760, 63561, 63362, 63162, 62963, 62565, 62166, 61768,
   61568, 61369, 60971, 60175, 58581, 56988, 55467, 54019, 52572, 51848, 51124, 50762, 50400,
   50038, 49857, 49676, 49495, 49314, 48952, 48590, 48228, 47866, 47504, 46780, 45333, 43885,
   42514, 41219, 39925, 39278, 38631, 38307, 37984, 37822, 37660, 37498, 37337, 37175, 37013,
   36851, 36690, 36366, 36043, 35719, 35395, 34748, 33454, 32160, 30944, 29808, 28671, 28102,
   27534, 27249, 26965, 26823, 26681, 26539, 26397, 26255, 26113, 25971, 25829, 25545, 25261,
   24976, 24692, 24408, 24124, 22987, 21851, 20788, 19799, 18811, 18316, 18069, 17822, 17574,
   17450, 17327, 17203, 17080, 16956, 16894, 16833, 16771, 16709, 16647, 16585, 16523, 16461,
   16338, 16214, 16091, 15844, 15350, 14856, 14608, 14361, 13867, 12878, 11752, 11119, 10487,
   10170, 9854, 9538, 9380, 9222, 9063, 8984, 8905, 8826, 8747, 8668, 8628, 8589, 8549, 8510,
   8470, 8431, 8391, 8352, 8312, 8273, 8233, 8194, 8154, 8115, 8075, 8036, 7996, 7957, 7917,
   7877, 7837, 7798, 7719, 7640, 7561, 7482, 7403, 7324, 7166, 7008, 6850, 6692, 6375, 6059,
   5427, 4162, 2897, 1632, 1000, 0]

def pts27 : List ℕ :=
  [561852, 561837, 561822, 561807, 561793, 561778, 561763, 561748, 561733, 561718, 561704,
   561689, 561585, 561391, 561197, 561100, 561051, 561003, 560978, 560954, 560906, 560810,
   560616, 560422, 560228, 560035, 559745, 559358, 558972, 558586, 558489, 558392, 558343,
   558295, 558199, 557813, 557427, 557041, 556654, 556173, 555596, 555020, 554444, 554299,
   554155, 554011, 553867, 553291, 552714, 552138, 551561, 550892, 550128, 549365, 548602,
   548220, 548124, 548029, 547839, 547648, 547457, 547076, 546313, 545550, 544787, 543933,
   542988, 542043, 541098, 540625, 540389, 540153, 539916, 539680, 539208, 538263, 537318,
   536373, 535340, 534219, 533098, 531977, 531416, 531136, 530856, 530715, 530575, 530295,
   529735, 528614, 527493, 526372, 525166, 523876, 522586, 521295, 520650, 520327, 520005,
   519843, 519682, 519360, 518715, 517425, 516135, 514844, 513473, 512022, 510571, 509119,
   508393, 508030, 507668, 507305, 506942, 506216, 504765, 503313, 501862, 500334, 498731,
   497127, 495523, 494721, 494320, 493919, 493518, 493117, 492316, 490712, 489108, 487505,
   485830, 484084, 482338, 480591, 479718, 479281, 478845, 478626, 478408, 477972, 477099,
   475353, 473607, 471861, 470049, 468171, 466294, 464416, 463477, 463007, 462538, 462303,
   462068, 461599, 460660, 458783, 456905, 455027, 453089, 451092, 449094, 447096, 446097,
   445597, 445098, 444848, 444598, 444099, 443101, 441103, 439105, 437107, 435056, 432950,
   430845, 428739, 427686, 427160, 426634, 426370, 426107, 425581, 424528, 422423, 420317,
   418212, 416059, 413859, 411658, 409458, 408358, 407258, 406708, 406158, 405058, 402857,
   400657, 398457, 396216, 393935, 391653, 389372, 388231, 387090, 386947, 386804, 386519,
   385949, 384809, 382527, 380246, 377964, 375649, 373301, 370952, 368604, 367429, 366255,
   365961, 365667, 365080, 363906, 361558, 359209, 356861, 354486, 352085, 349683, 347282,
   346081, 344881, 344580, 344280, 343980, 343680, 342480, 340078, 337677, 335276, 332856,
   330417, 327978, 325538, 324318, 323099, 322489, 321879, 320660, 318221, 315782, 313343,
   310892, 308431, 305969, 303507, 302276, 301045, 300737, 300429, 300121, 299814, 298583,
   296121, 293659, 291197, 288731, 286262, 283792, 281323, 280088, 278853, 278544, 278235,
   277926, 277618, 276383, 273914, 271444, 268975, 266509, 264047, 261585, 259123, 257892,
   256661, 256353, 256045, 255737, 255430, 254199, 251737, 249274, 246812, 244362, 241922,
   239483, 237044, 235824, 234604, 233994, 233384, 232165, 229726, 227286, 224847, 222427,
   220025, 217623, 215222, 214021, 213420, 212820, 212219, 211619, 211019, 210419, 208017,
   205615, 203214, 200838, 198489, 196140, 193791, 192616, 192029, 191442, 190854, 190267,
   189680, 189093, 186744, 184395, 182046, 179730, 177448, 175166, 172884, 171742, 171171,
   170601, 170030, 169460, 169174, 168889, 168319, 166037, 163755, 161473, 159231, 157030,
   154829, 152628, 151527, 150976, 150426, 149875, 149325, 148775, 148225, 146024, 143823,
   141622, 139468, 137361, 135254, 133147, 132094, 131567, 131041, 130514, 130250, 129987,
   129855, 129723, 129460, 128934, 126827, 124720, 122614, 120560, 118561, 116562, 114562,
   113562, 113062, 112563, 112063, 111563, 111063, 110563, 108564, 106564, 104565, 102625,
   100745, 98865, 96985, 96045, 95575, 95105, 94635, 94165, 93695, 93225, 91345, 89465, 87585,
   85771, 84022, 82272, 80523, 80085, 79648, 79211, 78774, 78336, 77899, 77462, 77025, 76150,
   75275, 73526, 71777, 70098, 68490, 66882, 66078, 65274, 64871, 64469, 64067, 63866, 63665,
   63464, 63263, 62861, 62459, 62057, 61253, 60449, 58841, 57232, 55699, 54241, 52783, 52054,
   51325, 50960, 50595, 50230, 50048, 49866, 49683, 49501, 49137, 48772, 48408, 47679, 46950,
   45492, 44033, 42654, 41352, 40051, 39400, 38750, 38424, 38099, 37936, 37774, 37611, 37449,
   37286, 37123, 36960, 36798, 36472, 36147, 35984, 35821, 35496, 34846, 33545, 32244, 31023,
   29881, 28740, 28169, 27599, 27313, 27028, 26885, 26743, 26600, 26458, 26315, 26172, 26029,
   25887, 25602, 25317, 25031, 24746, 24461, 24176, 23035, 21893, 20827, 19836, 18845, 18349,
   18101, 17854, 17606, 17482, 17358, 17234, 17110, 16986, 16924, 16862, 16800, 16738, 16676,
   16614, 16552, 16490, 16366, 16242, 16118, 15871, 15375, 14880, 14632, 14384, 13889, 12897,
   11768, 11135, 10502, 10185, 9868, 9551, 9393, 9235, 9076, 8997, 8918, 8838, 8759, 8680, 8640,
   8601, 8561, 8521, 8481, 8442, 8402, 8363, 8323, 8284, 8244, 8205, 8165, 8126, 8086, 8047,
   8007, 7968, 7928, 7888, 7848, 7809, 7769, 7730, 7651, 7571, 7492, 7413, 7334, 7175, 7017,
   6859, 6701, 6384, 6067, 5434, 4167, 2900, 1633, 1000, 0]

def pts28 : List ℕ :=
  [619843, 619823, 619803, 619783, 619763, 619743, 619723, 619703, 619683, 619663, 619643,
   619623, 619516, 619322, 619129, 619032, 618983, 618935, 618910, 618886, 618838, 618741,
   618548, 618354, 618160, 617966, 617676, 617290, 616903, 616517, 616420, 616324, 616275,
   616227, 616131, 615744, 615358, 614972, 614585, 614104, 613527, 612950, 612373, 612228,
   612084, 611940, 611868, 611796, 611219, 610642, 610065, 609488, 608818, 608054, 607290,
   606526, 606143, 605952, 605761, 605379, 604997, 604233, 603469, 602705, 601849, 600902,
   599955, 599008, 598534, 598415, 598297, 598061, 597824, 597587, 597114, 596166, 595219,
   594272, 593236, 592111, 590986, 589862, 589299, 589018, 588737, 588596, 588455, 588174,
   587612, 586487, 585362, 584237, 583027, 581731, 580434, 579138, 578490, 578166, 577842,
   577518, 577194, 576546, 575250, 573953, 572657, 571279, 569818, 568358, 566898, 566167,
   565802, 565437, 565072, 564707, 563977, 562516, 561056, 559596, 558057, 556441, 554824,
   553208, 552400, 551996, 551592, 551389, 551187, 550783, 549975, 548359, 546742, 545126,
   543436, 541673, 539910, 538146, 537264, 536823, 536383, 535942, 535501, 534620, 532856,
   531093, 529330, 527498, 525597, 523697, 521796, 520846, 520371, 519896, 519658, 519420,
   518945, 517995, 516095, 514195, 512294, 510331, 508304, 506277, 504250, 503236, 502729,
   502223, 501716, 501209, 500196, 498169, 496142, 494115, 492031, 489889, 487747, 485605,
   484534, 483998, 483463, 483195, 482927, 482392, 481321, 479179, 477037, 474895, 472701,
   470456, 468211, 465965, 464842, 464281, 463720, 463439, 463158, 462597, 461475, 459230,
   456985, 454739, 452449, 450113, 447777, 445442, 444274, 443106, 442522, 441938, 440770,
   438434, 436098, 433763, 431388, 428975, 426561, 424148, 422941, 421735, 421433, 421131,
   420528, 419321, 416908, 414495, 412081, 409636, 407159, 404681, 402204, 400965, 399726,
   399416, 399106, 398487, 397249, 394772, 392294, 389817, 387314, 384787, 382259, 379732,
   378468, 377204, 376572, 375940, 374676, 372149, 369621, 367094, 364548, 361984, 359421,
   356857, 355575, 354293, 353652, 353011, 351730, 349166, 346602, 344039, 341464, 338879,
   336293, 333708, 332415, 331123, 330799, 330476, 330153, 329830, 328537, 325952, 323366,
   320781, 318192, 315599, 313007, 310414, 309117, 307821, 307173, 306525, 305229, 302636,
   300043, 297451, 294861, 292276, 289690, 287105, 285812, 284519, 284195, 283872, 283549,
   283226, 281934, 279348, 276763, 274177, 271603, 269039, 266475, 263911, 262629, 261347,
   260706, 260065, 258784, 256220, 253656, 251092, 248546, 246018, 243490, 240962, 239698,
   239066, 238435, 237803, 237171, 235907, 233379, 230851, 228323, 225820, 223342, 220865,
   218387, 217148, 216528, 215909, 215289, 214670, 214360, 214050, 213431, 210953, 208476,
   205998, 203552, 201138, 198724, 196310, 195103, 194499, 193896, 193292, 192689, 192387,
   192085, 191482, 189068, 186655, 184241, 181865, 179529, 177192, 174856, 173687, 173103,
   172519, 171935, 171351, 170767, 170183, 167846, 165510, 163173, 160882, 158636, 156389,
   154143, 153020, 152458, 151897, 151335, 150774, 150493, 150212, 149651, 148528, 147405,
   145159, 142912, 140718, 138574, 136431, 134288, 133216, 132680, 132144, 131608, 131072,
   130536, 130001, 127858, 125714, 123571, 121485, 119457, 117428, 115399, 114385, 113878,
   113371, 112863, 112356, 111849, 111595, 111342, 109314, 107285, 105256, 103291, 101388,
   99485, 97583, 96631, 96155, 95680, 95204, 94728, 94252, 93777, 91875, 89972, 88069, 86235,
   84468, 82702, 80935, 80493, 80052, 79610, 79169, 78727, 78285, 77843, 77402, 76519, 75636,
   73869, 72103, 70409, 68788, 67167, 66356, 65546, 65140, 64735, 64330, 64127, 63925, 63722,
   63519, 63114, 62709, 62304, 62101, 61898, 61493, 60683, 59063, 57442, 55898, 54430, 52963,
   52229, 51496, 51129, 50762, 50395, 50212, 50029, 49845, 49662, 49295, 48928, 48562, 47828,
   47094, 45627, 44160, 42773, 41466, 40158, 39504, 38851, 38524, 38197, 38033, 37870, 37707,
   37544, 37380, 37217, 37053, 36890, 36563, 36237, 35910, 35583, 34929, 33622, 32315, 31089,
   29944, 28799, 28226, 27654, 27367, 27081, 26938, 26795, 26652, 26509, 26365, 26222, 26079,
   25936, 25650, 25364, 25077, 24791, 24505, 24219, 23074, 21929, 20860, 19867, 18873, 18376,
   18128, 17880, 17631, 17507, 17383, 17259, 17135, 17011, 16949, 16887, 16824, 16762, 16700,
   16638, 16576, 16514, 16390, 16265, 16141, 15893, 15396, 14900, 14403, 13906, 12913, 11782,
   11148, 10514, 10196, 9879, 9562, 9403, 9245, 9086, 9007, 8928, 8848, 8769, 8690, 8650, 8611,
   8571, 8531, 8491, 8452, 8412, 8373, 8333, 8294, 8254, 8214, 8174, 8135, 8095, 8056, 8016,
   7977, 7937, 7897, 7857, 7818, 7778, 7738, 7659, 7579, 7500, 7421, 7342, 7183, 7025, 6866,
   6708, 6391, 6074, 5440, 4171, 2903, 1634, 1000, 0]

def pts29 : List ℕ :=
  [713833, 712833, 712558, 712010, 711736, 711543, 711349, 711252, 711155, 711058, 710961,
   710768, 710574, 710380, 710186, 709896, 709510, 709123, 708737, 708640, 708543, 708446,
   708350, 707964, 707577, 707191, 706804, 706322, 705745, 705167, 704590, 704301, 704264,
   704228, 704156, 704012, 703435, 702857, 702280, 701703, 701031, 700266, 699500, 698735,
   698352, 698256, 698160, 698064, 697969, 697586, 697203, 696438, 695672, 694907, 694049,
   693099, 692149, 691200, 690725, 690606, 690487, 690368, 690250, 689775, 689300, 688350,
   687400, 686450, 685410, 684281, 683151, 682021, 681456, 681174, 680892, 680750, 680609,
   680327, 679762, 678633, 677503, 676373, 675157, 673853, 672549, 671245, 670593, 670267,
   669941, 669615, 669289, 668637, 667333, 666030, 664726, 663338, 661866, 660394, 658923,
   658187, 657819, 657451, 657083, 656715, 655979, 654507, 653036, 651564, 650012, 648379,
   646747, 645114, 644298, 643890, 643482, 643277, 643073, 642665, 641849, 640217, 638585,
   636952, 635243, 633458, 631673, 629888, 628995, 628102, 627209, 626317, 624532, 622747,
   620962, 619104, 617175, 615246, 613316, 612351, 611869, 611387, 611145, 610904, 610422,
   609458, 607529, 605599, 603670, 601673, 599609, 597545, 595482, 594450, 593418, 592386,
   591354, 589290, 587226, 585162, 583036, 580847, 578658, 576470, 575375, 574281, 573187,
   572093, 569904, 567716, 565527, 563281, 560979, 558676, 556374, 555222, 554646, 554071,
   553783, 553495, 552920, 551769, 549466, 547164, 544861, 542508, 540102, 537697, 535292,
   534089, 533488, 532887, 532586, 532285, 531684, 530481, 528076, 525671, 523266, 520815,
   518319, 515822, 513326, 512078, 511454, 510830, 510517, 510205, 509581, 508333, 505837,
   503341, 500845, 498309, 495734, 493159, 490584, 489296, 488008, 487364, 486720, 485433,
   482858, 480283, 477708, 475100, 472458, 469817, 467175, 465854, 464534, 464368, 464203,
   463873, 463213, 461893, 459251, 456610, 453968, 451300, 448605, 445910, 443215, 441867,
   440520, 440183, 439846, 439173, 437826, 435131, 432436, 429741, 427026, 424291, 421555,
   418820, 417452, 416085, 415401, 414717, 413350, 410615, 407879, 405144, 402395, 399633,
   396871, 394109, 392728, 391347, 390656, 389965, 388584, 385822, 383060, 380298, 377529,
   374753, 371977, 369201, 367813, 366426, 365732, 365038, 363650, 360874, 358098, 355323,
   352547, 349771, 346995, 344219, 342831, 341444, 340750, 340056, 338668, 335892, 333116,
   330340, 327571, 324809, 322047, 319284, 317903, 316522, 316176, 315831, 315141, 314450,
   313760, 310997, 308235, 305473, 302724, 299988, 297253, 294518, 293150, 291782, 291098,
   290414, 289047, 286311, 283576, 280841, 278125, 275430, 272735, 270040, 268692, 267345,
   266671, 265997, 264650, 261954, 259259, 256564, 253896, 251254, 248612, 245970, 244649,
   243989, 243329, 242668, 242008, 241677, 241347, 240687, 238045, 235403, 232761, 230153,
   227577, 225001, 222426, 221138, 220494, 219850, 219206, 218562, 217918, 217275, 214699,
   212123, 209548, 207012, 204515, 202018, 199521, 198272, 197648, 197024, 196399, 195775,
   195151, 194527, 192030, 189533, 187037, 184585, 182179, 179773, 177367, 176164, 175562,
   174961, 174359, 173758, 173457, 173156, 172555, 170149, 167743, 165337, 162982, 160679,
   158375, 156072, 154920, 154344, 153768, 153192, 152616, 152040, 151464, 149161, 146857,
   144554, 142307, 140117, 137927, 135738, 134643, 134095, 133548, 133000, 132453, 132179,
   131905, 131358, 129168, 126978, 124788, 122660, 120595, 118529, 116463, 115430, 114914,
   114398, 113881, 113365, 113106, 112848, 112332, 110266, 108201, 106135, 104137, 102205,
   100273, 98342, 97376, 96893, 96410, 95927, 95444, 94961, 94479, 93513, 92547, 90615, 88684,
   86824, 85035, 83247, 81459, 81011, 80564, 80117, 79670, 79223, 78776, 78329, 77882, 77434,
   76987, 76093, 74305, 72517, 70804, 69167, 67530, 66711, 65893, 65483, 65074, 64665, 64460,
   64256, 64051, 63846, 63437, 63028, 62619, 62414, 62209, 61800, 60982, 59345, 57708, 56150,
   54672, 53193, 52454, 51715, 51345, 50975, 50605, 50420, 50236, 50051, 49866, 49497, 49127,
   48758, 48388, 48018, 47279, 45800, 44322, 42925, 41610, 40295, 39637, 38980, 38651, 38323,
   38158, 37994, 37830, 37666, 37501, 37337, 37172, 37008, 36679, 36351, 36022, 35693, 35036,
   33721, 32406, 31174, 30024, 28874, 28299, 27724, 27436, 27149, 27005, 26862, 26718, 26575,
   26431, 26287, 26143, 26000, 25712, 25425, 25137, 24850, 24706, 24562, 24275, 23125, 21976,
   20903, 19907, 18910, 18412, 18163, 17914, 17665, 17540, 17416, 17291, 17167, 17042, 16980,
   16918, 16855, 16793, 16731, 16669, 16606, 16544, 16420, 16295, 16171, 15922, 15424, 14926,
   14428, 13930, 12934, 11800, 11165, 10530, 10212, 9894, 9576, 9417, 9259, 9179, 9100, 9020,
   8941, 8861, 8782, 8742, 8702, 8662, 8623, 8583, 8543, 8503, 8464, 8424, 8384, 8344, 8305,
   8265, 8225, 8185, 8146, 8106, 8067, 8027, 7988, 7948, 7908, 7868, 7829, 7789, 7749, 7670,
   7590, 7511, 7432, 7353, 7194, 7035, 6876, 6718, 6400, 6082, 5447, 4177, 2906, 1635, 1000, 0]

def pts30 : List ℕ :=
  [812421, 811421, 810324, 810130, 809937, 809840, 809791, 809743, 809718, 809694, 809646,
   809549, 809355, 809162, 808968, 808774, 808484, 808097, 807711, 807517, 807324, 807227,
   807130, 807033, 806937, 806551, 806164, 805777, 805391, 804909, 804331, 803753, 803175,
   802886, 802849, 802813, 802741, 802597, 802019, 801441, 800863, 800285, 799613, 798846,
   798080, 797313, 796929, 796833, 796737, 796641, 796546, 796163, 795780, 795013, 794246,
   793480, 792620, 791668, 790716, 789764, 789288, 789050, 788812, 788336, 787860, 786907,
   785955, 785003, 783960, 782827, 781693, 780559, 779992, 779709, 779426, 779142, 778859,
   778292, 777159, 776025, 774892, 773670, 772360, 771049, 769739, 769084, 768756, 768429,
   768265, 768101, 767774, 767119, 765809, 764499, 763189, 761793, 760312, 758831, 757350,
   756609, 756239, 755869, 755683, 755498, 755128, 754388, 752906, 751425, 749944, 748381,
   746735, 745090, 743444, 742621, 742209, 741798, 741592, 741386, 740975, 740152, 738507,
   736861, 735215, 733491, 731688, 729884, 728081, 727179, 726728, 726278, 725827, 725376,
   724475, 722671, 720868, 719065, 717187, 715233, 713280, 711327, 710350, 709862, 709374,
   709129, 708885, 708397, 707421, 705468, 703515, 701562, 699538, 697443, 695349, 693254,
   692206, 691159, 690112, 689065, 686970, 684876, 682781, 680620, 678393, 676166, 673939,
   672825, 672268, 671712, 671155, 670598, 669485, 667258, 665031, 662804, 660515, 658165,
   655815, 653465, 652290, 651115, 649940, 648765, 646415, 644064, 641714, 639308, 636845,
   634382, 631919, 630687, 630071, 629456, 628840, 628224, 626993, 624530, 622067, 619604,
   617090, 614524, 611959, 609394, 608111, 607469, 606828, 606507, 606186, 605545, 604263,
   601698, 599132, 596567, 593956, 591299, 588643, 585986, 584657, 583993, 583329, 582996,
   582664, 582000, 580672, 578016, 575359, 572702, 570005, 567269, 564532, 561795, 560426,
   559058, 558374, 557690, 556322, 553585, 550848, 548111, 545341, 542536, 539730, 536925,
   535522, 534120, 533769, 533418, 532717, 531315, 528510, 525705, 522900, 520067, 517206,
   514344, 511483, 510052, 508622, 508264, 507906, 507191, 505761, 502899, 500038, 497177,
   494293, 491388, 488483, 485577, 484124, 482672, 482490, 482308, 481945, 481219, 479767,
   476861, 473956, 471051, 468129, 465192, 462256, 459319, 457850, 456382, 456014, 455647,
   455280, 454913, 453445, 450508, 447571, 444634, 441687, 438731, 435776, 432820, 431342,
   429864, 429125, 428386, 426908, 423952, 420996, 418040, 415081, 412118, 409156, 406194,
   404712, 403231, 402860, 402490, 402120, 401750, 400269, 397307, 394344, 391382, 388423,
   385467, 382511, 379555, 378077, 376599, 375860, 375121, 373643, 370687, 367731, 364775,
   361828, 358891, 355954, 353017, 351548, 350080, 349712, 349345, 348978, 348611, 347143,
   344206, 341269, 338332, 335411, 332505, 329600, 326694, 325241, 323789, 323425, 323062,
   322336, 321609, 320883, 317977, 315072, 312166, 309283, 306421, 303560, 300698, 299267,
   297837, 297479, 297121, 296763, 296406, 294975, 292114, 289252, 286391, 283557, 280752,
   277946, 275141, 273738, 272336, 271985, 271634, 271283, 270933, 269530, 266725, 263920,
   261114, 258343, 255606, 252869, 250132, 248763, 248079, 247395, 246710, 246026, 245683,
   245341, 244657, 241920, 239183, 236446, 233749, 231092, 228434, 225777, 224448, 223784,
   223120, 222455, 221791, 221127, 220463, 217805, 215148, 212491, 209879, 207313, 204747,
   202181, 200898, 200256, 199615, 198973, 198332, 198011, 197690, 197049, 194483, 191917,
   189351, 186836, 184373, 181909, 179445, 178213, 177597, 176981, 176365, 175749, 175133,
   174517, 172054, 169590, 167126, 164719, 162367, 160016, 157665, 156489, 155901, 155314,
   154726, 154138, 153550, 152963, 150612, 148261, 145910, 143620, 141392, 139163, 136935,
   135820, 135263, 134706, 134149, 133592, 133035, 132478, 131363, 130249, 128021, 125793,
   123630, 121534, 119438, 117341, 116293, 115769, 115245, 114721, 114197, 113673, 113149,
   112100, 111052, 108956, 106860, 104834, 102878, 100923, 98967, 97989, 97500, 97012, 96523,
   96034, 95545, 95057, 94079, 93101, 91146, 89190, 87309, 85503, 83697, 81890, 81438, 80987,
   80535, 80084, 79632, 79180, 78728, 78277, 77374, 76471, 74664, 72858, 71129, 69479, 67829,
   67004, 66179, 65766, 65354, 64941, 64735, 64529, 64322, 64116, 63703, 63290, 62878, 62053,
   61228, 59578, 57928, 56358, 54871, 53383, 52639, 51895, 51523, 51151, 50779, 50593, 50407,
   50221, 50035, 49663, 49291, 48919, 48175, 47431, 45943, 44455, 43051, 41729, 40408, 39747,
   39087, 38756, 38426, 38261, 38096, 37931, 37766, 37600, 37435, 37270, 37105, 36775, 36445,
   36279, 36114, 35784, 35124, 33802, 32481, 31244, 30090, 28936, 28359, 27783, 27494, 27206,
   27061, 26917, 26773, 26629, 26484, 26340, 26196, 26052, 25763, 25475, 25186, 24898, 24322,
   23745, 23168, 22014, 20938, 19940, 18941, 18442, 18192, 17943, 17693, 17568, 17444, 17319,
   17194, 17069, 17007, 16945, 16882, 16820, 16757, 16695, 16632, 16570, 16445, 16320, 16195,
   15946, 15447, 14948, 14698, 14448, 13949, 12951, 11816, 11179, 10543, 10225, 9907, 9589,
   9430, 9271, 9191, 9111, 9031, 8952, 8872, 8793, 8753, 8713, 8673, 8634, 8594, 8554, 8514,
   8475, 8435, 8395, 8355, 8316, 8276, 8236, 8196, 8157, 8117, 8077, 8037, 7998, 7958, 7918,
   7878, 7839, 7799, 7759, 7680, 7600, 7521, 7441, 7362, 7203, 7044, 6885, 6726, 6407, 6089,
   5453, 4181, 2909, 1636, 1000, 0]

def pts31 : List ℕ :=
  [917359, 916359, 915263, 915069, 914875, 914778, 914729, 914681, 914656, 914632, 914584,
   914488, 914294, 914100, 913906, 913713, 913422, 913036, 912649, 912455, 912262, 912069,
   911876, 911489, 911102, 910715, 910329, 909846, 909268, 908690, 908111, 907822, 907785,
   907749, 907677, 907533, 906955, 906377, 905798, 905220, 904547, 903779, 903012, 902244,
   901860, 901764, 901668, 901477, 901285, 901093, 900709, 899941, 899174, 898406, 897545,
   896591, 895637, 894683, 894206, 894086, 893967, 893729, 893490, 893252, 892775, 891821,
   890867, 889913, 888868, 887731, 886594, 885457, 884888, 884604, 884320, 884035, 883751,
   883183, 882047, 880910, 879773, 878547, 877231, 875916, 874601, 873943, 873614, 873285,
   872956, 872627, 871970, 870655, 869339, 868024, 866622, 865133, 863644, 862155, 861411,
   861039, 860667, 860480, 860294, 859922, 859178, 857689, 856200, 854711, 853138, 851482,
   849825, 848168, 847340, 846926, 846719, 846615, 846512, 846408, 846304, 846097, 845683,
   844855, 843198, 841542, 839885, 838147, 836329, 834511, 832692, 831783, 830874, 829965,
   829056, 827238, 825419, 823601, 821705, 819732, 817760, 815787, 814800, 814307, 813814,
   813567, 813320, 812827, 811841, 809868, 807895, 805922, 803875, 801755, 799635, 797515,
   796455, 795925, 795395, 795129, 794864, 794334, 793274, 791154, 789034, 786914, 784724,
   782465, 780206, 777946, 776816, 776251, 775687, 775122, 774557, 773428, 771168, 768909,
   766650, 764325, 761935, 759545, 757155, 755960, 755363, 754766, 754467, 754168, 753571,
   752376, 749986, 747596, 745206, 742755, 740244, 737733, 735221, 733965, 733337, 732710,
   732082, 731454, 730198, 727687, 725175, 722664, 720097, 717473, 714850, 712226, 710914,
   710258, 709603, 708947, 708291, 706980, 704356, 701733, 699109, 696435, 693710, 690984,
   688259, 686896, 686214, 685533, 685192, 684851, 684170, 682808, 680082, 677357, 674631,
   671860, 669043, 666226, 663409, 662000, 661296, 660592, 660239, 659887, 659183, 657774,
   654957, 652140, 649323, 646465, 643567, 640669, 637771, 636322, 635597, 634873, 634148,
   633423, 631974, 629076, 626178, 623280, 620347, 617379, 614410, 611442, 609958, 608474,
   607732, 606990, 605506, 602538, 599569, 596601, 593604, 590577, 587550, 584523, 583009,
   581496, 580739, 579982, 578469, 575442, 572415, 569388, 566337, 563263, 560189, 557115,
   555577, 554040, 553847, 553655, 553271, 552503, 550966, 547892, 544818, 541743, 538651,
   535541, 532432, 529322, 527767, 526989, 526212, 525823, 525434, 524657, 523102, 519992,
   516882, 513772, 510650, 507517, 504383, 501249, 499682, 498116, 497724, 497332, 496940,
   496549, 494982, 491848, 488714, 485581, 482441, 479295, 476150, 473004, 471431, 469858,
   469464, 469071, 468678, 468285, 466713, 463567, 460421, 457276, 454130, 450984, 447839,
   444693, 443120, 441547, 441153, 440760, 440367, 439974, 438402, 435256, 432110, 428965,
   425825, 422691, 419557, 416424, 414857, 413290, 412898, 412506, 412114, 411723, 410156,
   407022, 403888, 400755, 397633, 394523, 391413, 388303, 386748, 385193, 384804, 384415,
   384026, 383638, 382083, 378973, 375863, 372753, 369661, 366586, 363512, 360437, 358900,
   357363, 356978, 356594, 355826, 355057, 354289, 351214, 348140, 345065, 342015, 338987,
   335960, 332933, 331419, 329906, 329149, 328392, 326879, 323852, 320824, 317797, 314799,
   311831, 308862, 305894, 304410, 302926, 302554, 302183, 301812, 301441, 299957, 296989,
   294020, 291052, 288118, 285220, 282321, 279423, 277973, 276524, 276161, 275799, 275075,
   273626, 270727, 267829, 264930, 262072, 259255, 256437, 253619, 252210, 251506, 250802,
   250097, 249393, 249040, 248688, 247984, 245167, 242349, 239531, 236760, 234034, 231308,
   228582, 227219, 226537, 225856, 225174, 224493, 224152, 223811, 223130, 220404, 217678,
   214952, 212277, 209653, 207029, 204405, 203093, 202437, 201781, 201125, 200469, 199813,
   199157, 196532, 193908, 191284, 188716, 186204, 183692, 181179, 179923, 179295, 178667,
   178039, 177411, 176783, 176155, 173643, 171130, 168618, 166167, 163776, 161385, 158994,
   157798, 157200, 156603, 156005, 155407, 155108, 154809, 154212, 151821, 149430, 147039,
   144713, 142453, 140192, 137931, 136801, 136236, 135671, 135105, 134540, 133975, 133410,
   131149, 128889, 126628, 124437, 122315, 120193, 118071, 117010, 116479, 115949, 115418,
   114888, 114622, 114357, 113827, 111705, 109584, 107462, 105413, 103438, 101462, 99487, 98499,
   98005, 97512, 97018, 96524, 96030, 95537, 94549, 93561, 91586, 89611, 87712, 85891, 84069,
   82248, 81792, 81337, 80881, 80653, 80426, 79970, 79515, 79060, 78605, 77694, 76783, 74962,
   73141, 71399, 69738, 68077, 67246, 66415, 65999, 65584, 65169, 64961, 64754, 64546, 64338,
   63923, 63508, 63093, 62885, 62677, 62262, 61432, 59770, 58109, 56531, 55035, 53539, 52791,
   52044, 51670, 51296, 50922, 50735, 50548, 50361, 50174, 49800, 49426, 49052, 48678, 48304,
   47557, 46061, 44565, 43154, 41828, 40501, 39838, 39175, 38843, 38512, 38346, 38180, 38014,
   37849, 37683, 37517, 37351, 37185, 36853, 36522, 36356, 36190, 35859, 35527, 35196, 33869,
   32543, 31301, 30144, 28987, 28409, 27831, 27541, 27252, 27107, 26963, 26818, 26674, 26529,
   26384, 26239, 26095, 25950, 25806, 25517, 25227, 24938, 24649, 24360, 23203, 22046, 20967,
   19967, 18967, 18466, 18216, 17966, 17716, 17591, 17466, 17341, 17216, 17153, 17091, 17028,
   16966, 16903, 16841, 16778, 16716, 16653, 16591, 16466, 16341, 16216, 15966, 15465, 14965,
   14465, 13965, 12965, 11828, 11191, 10554, 10235, 9917, 9598, 9439, 9280, 9200, 9120, 9040,
   8961, 8881, 8802, 8762, 8722, 8682, 8643, 8603, 8563, 8523, 8483, 8443, 8403, 8363, 8324,
   8284, 8244, 8204, 8165, 8125, 8085, 8045, 8006, 7966, 7926, 7886, 7846, 7806, 7766, 7687,
   7607, 7528, 7448, 7369, 7289, 7209, 7050, 6891, 6732, 6413, 6095, 5459, 4185, 2911, 1637,
   1000, 0]

def pts32 : List ℕ :=
  [1028671, 1027671, 1026574, 1026380, 1026186, 1026089, 1026041, 1025993, 1025968, 1025944,
   1025896, 1025799, 1025605, 1025411, 1025218, 1025024, 1024734, 1024347, 1023960, 1023766,
   1023573, 1023476, 1023379, 1023282, 1023186, 1022800, 1022413, 1022026, 1021639, 1021156,
   1020578, 1019999, 1019421, 1019276, 1019131, 1018986, 1018842, 1018264, 1017685, 1017106,
   1016528, 1015854, 1015086, 1014317, 1013549, 1013165, 1012973, 1012781, 1012396, 1012012,
   1011244, 1010475, 1009707, 1008845, 1007889, 1006934, 1005978, 1005500, 1005380, 1005261,
   1005023, 1004784, 1004545, 1004067, 1003111, 1002156, 1001200, 1000152, 999013, 997873,
   996734, 996164, 995879, 995594, 995024, 994454, 993315, 992175, 991036, 989806, 988486,
   987167, 985847, 985187, 984857, 984527, 984197, 983867, 983207, 981888, 980568, 979248,
   977841, 976345, 974850, 973355, 972607, 972233, 971859, 971485, 971111, 970364, 968868,
   967373, 965878, 964297, 962631, 960965, 959299, 958466, 958049, 957633, 957424, 957216,
   956800, 955967, 954301, 952635, 950969, 949221, 947390, 945559, 943728, 942812, 942354,
   941897, 941439, 940981, 940066, 938235, 936404, 934573, 932663, 930673, 928683, 926693,
   925698, 925201, 924704, 924455, 924206, 923709, 922714, 920724, 918735, 916745, 914679,
   912537, 910396, 908254, 907183, 906112, 905041, 903970, 901829, 899687, 897545, 895331,
   893044, 890758, 888471, 887328, 886756, 886185, 885613, 885041, 883898, 881612, 879325,
   877039, 874684, 872260, 869836, 867413, 866201, 864989, 863777, 862566, 860142, 857718,
   855295, 852807, 850254, 847702, 845150, 843873, 842597, 841321, 840045, 837492, 834940,
   832387, 829775, 827102, 824429, 821757, 820420, 819752, 819084, 818749, 818415, 817747,
   816411, 813739, 811066, 808393, 805665, 802881, 800098, 797314, 795922, 795226, 794530,
   793834, 793138, 791746, 788962, 786178, 783395, 780560, 777674, 774789, 771903, 770460,
   769738, 769017, 768656, 768295, 767574, 766132, 763246, 760361, 757475, 754544, 751566,
   748588, 745611, 744122, 743377, 742633, 742260, 741888, 741144, 739656, 736678, 733700,
   730723, 727704, 724645, 721585, 718526, 716996, 716231, 715466, 714701, 713936, 712407,
   709347, 706288, 703228, 700133, 697002, 693871, 690740, 689174, 687609, 686826, 686043,
   684478, 681347, 678216, 675085, 671923, 668731, 665539, 662347, 660751, 659155, 658357,
   657559, 655963, 652771, 649579, 646387, 643170, 639927, 636685, 633443, 631822, 630201,
   629998, 629795, 629390, 628580, 626959, 623716, 620474, 617232, 613970, 610689, 607407,
   604126, 602485, 600845, 600639, 600434, 600024, 599204, 597563, 594282, 591000, 587719,
   584423, 581114, 577804, 574495, 572840, 572012, 571185, 570771, 570357, 569530, 567876,
   564566, 561257, 557947, 554629, 551303, 547977, 544650, 542987, 541324, 540492, 539660,
   537997, 534671, 531344, 528018, 524689, 521357, 518025, 514693, 513026, 511360, 510527,
   509694, 508028, 504696, 501364, 498032, 494703, 491377, 488050, 484724, 483060, 481397,
   480981, 480565, 480149, 479734, 478071, 474744, 471418, 468091, 464773, 461464, 458154,
   454845, 453190, 451535, 451121, 450707, 450293, 449880, 448225, 444916, 441606, 438297,
   435001, 431720, 428438, 425157, 423516, 421875, 421464, 421054, 420644, 420234, 418594,
   415312, 412031, 408749, 405487, 402245, 399002, 395760, 394139, 392518, 391707, 390896,
   389275, 386033, 382791, 379548, 376331, 373139, 369947, 366754, 365158, 363562, 362764,
   361966, 360370, 357178, 353985, 350793, 347631, 344500, 341369, 338238, 336672, 335106,
   334323, 333540, 331975, 328844, 325712, 322581, 319486, 316426, 313366, 310306, 308776,
   307246, 306481, 305716, 304187, 301127, 298067, 295007, 291988, 289010, 286032, 283055,
   281566, 280821, 280077, 279332, 278588, 278215, 277843, 277099, 274121, 271143, 268165,
   265233, 262347, 259461, 256575, 255132, 254410, 253689, 252967, 252246, 251885, 251524,
   250803, 247917, 245031, 242145, 239309, 236525, 233741, 230956, 229564, 228868, 228172,
   227475, 226779, 226083, 225387, 222603, 219819, 217034, 214305, 211632, 208959, 206285,
   204948, 204280, 203612, 202943, 202275, 201607, 200939, 198265, 195592, 192919, 190305,
   187752, 185199, 182645, 181368, 180730, 180092, 179453, 178815, 178177, 177539, 174986,
   172432, 169879, 167390, 164965, 162541, 160116, 158903, 158297, 157691, 157085, 156479,
   155873, 155267, 154054, 152842, 150418, 147993, 145637, 143349, 141061, 138773, 137629,
   137057, 136485, 135913, 135341, 134769, 134197, 131909, 129621, 127333, 125118, 122974,
   120831, 118687, 117615, 117079, 116544, 116008, 115472, 114936, 114668, 114400, 112257,
   110113, 107970, 105902, 103910, 101918, 99926, 98930, 98432, 97934, 97436, 96938, 96440,
   95942, 94946, 93950, 91958, 89965, 88052, 86218, 84384, 82550, 82091, 81633, 81174, 80945,
   80716, 80257, 79799, 79569, 79340, 78882, 77965, 77048, 75213, 73379, 71627, 69956, 68286,
   67450, 66615, 66197, 65780, 65362, 65153, 64945, 64736, 64527, 64109, 63691, 63274, 62439,
   61604, 59933, 58263, 56676, 55174, 53672, 52921, 52170, 51794, 51418, 51042, 50854, 50667,
   50479, 50291, 49916, 49540, 49165, 48414, 47663, 46161, 44658, 43242, 41911, 40580, 39915,
   39250, 38917, 38584, 38417, 38251, 38085, 37919, 37752, 37586, 37419, 37253, 36920, 36588,
   36255, 35922, 35257, 33926, 32596, 31350, 30191, 29031, 28451, 27871, 27581, 27291, 27146,
   27001, 26856, 26712, 26567, 26422, 26277, 26132, 25987, 25842, 25552, 25262, 24972, 24682,
   24392, 23232, 22073, 20992, 19990, 18988, 18487, 18236, 17986, 17735, 17610, 17485, 17360,
   17235, 17172, 17110, 17047, 16985, 16922, 16859, 16796, 16734, 16671, 16609, 16484, 16358,
   16233, 15983, 15482, 14981, 14480, 13979, 12977, 11839, 11201, 10563, 10244, 9925, 9606,
   9447, 9288, 9208, 9128, 9048, 8969, 8889, 8809, 8769, 8729, 8689, 8650, 8610, 8570, 8530,
   8490, 8450, 8410, 8370, 8331, 8291, 8251, 8211, 8172, 8132, 8092, 8052, 8013, 7973, 7933,
   7893, 7853, 7813, 7773, 7733, 7694, 7614, 7534, 7454, 7375, 7295, 7215, 7056, 6897, 6738,
   6419, 6100, 5463, 4188, 2913, 1638, 1000, 0]

def pts33 : List ℕ :=
  [1146323, 1145323, 1144226, 1144032, 1143838, 1143741, 1143693, 1143645, 1143620, 1143596,
   1143548, 1143451, 1143257, 1143063, 1142870, 1142676, 1142386, 1141999, 1141612, 1141418,
   1141225, 1141128, 1141031, 1140934, 1140838, 1140451, 1140064, 1139677, 1139290, 1138808,
   1138229, 1137650, 1137071, 1136926, 1136781, 1136636, 1136492, 1135913, 1135335, 1134756,
   1134177, 1133503, 1132734, 1131965, 1131196, 1131003, 1130811, 1130619, 1130427, 1129658,
   1128888, 1128119, 1127350, 1126487, 1125530, 1124573, 1123616, 1123138, 1122899, 1122660,
   1122420, 1122181, 1121703, 1120746, 1119789, 1118832, 1117782, 1116640, 1115498, 1114357,
   1113786, 1113643, 1113500, 1113357, 1113215, 1112644, 1112073, 1110931, 1109789, 1108647,
   1107414, 1106091, 1104767, 1103444, 1102782, 1102451, 1102121, 1101790, 1101459, 1100797,
   1099474, 1098150, 1096827, 1095415, 1093914, 1092413, 1090912, 1090161, 1089786, 1089411,
   1089223, 1089035, 1088660, 1087910, 1086409, 1084908, 1083408, 1081820, 1080146, 1078473,
   1076799, 1075962, 1075543, 1075125, 1074915, 1074706, 1074288, 1073451, 1071777, 1070103,
   1068430, 1066672, 1064830, 1062988, 1061147, 1060226, 1059765, 1059305, 1059074, 1058844,
   1058384, 1057463, 1055622, 1053780, 1051938, 1050016, 1048012, 1046008, 1044004, 1043002,
   1042000, 1040998, 1039996, 1037992, 1035988, 1033984, 1031902, 1029742, 1027582, 1025422,
   1024342, 1023802, 1023262, 1022722, 1022182, 1021102, 1018942, 1016781, 1014621, 1012387,
   1010077, 1007767, 1005457, 1004302, 1003725, 1003148, 1002859, 1002570, 1001993, 1000838,
   998528, 996219, 993909, 991528, 989076, 986623, 984171, 982945, 982332, 981719, 981412,
   981105, 980492, 979266, 976814, 974362, 971910, 969390, 966802, 964215, 961627, 960333,
   959686, 959040, 958393, 957746, 956453, 953865, 951278, 948690, 946039, 943325, 940610,
   937895, 936537, 935180, 933823, 932466, 929751, 927036, 924321, 921547, 918713, 915880,
   913046, 911629, 910212, 908795, 907378, 904545, 901711, 898877, 895988, 893044, 890100,
   887156, 885683, 884211, 882739, 881267, 878323, 875379, 872435, 869440, 866394, 863348,
   860303, 858780, 857257, 855734, 854211, 851166, 848120, 845074, 841982, 838844, 835706,
   832569, 831000, 830215, 829431, 829038, 828646, 827862, 826293, 823155, 820017, 816879,
   813700, 810479, 807258, 804038, 802427, 801622, 800817, 800414, 800011, 799206, 797596,
   794376, 791155, 787934, 784677, 781384, 778090, 774796, 773149, 772326, 771503, 771091,
   770679, 769856, 768209, 764916, 761622, 758328, 755003, 751647, 748290, 744934, 743255,
   741577, 740738, 739899, 738221, 734864, 731508, 728151, 724768, 721359, 717950, 714540,
   712835, 711131, 710917, 710704, 710278, 709426, 707722, 704313, 700903, 697494, 694064,
   690612, 687160, 683709, 681983, 680257, 679394, 678531, 676805, 673354, 669902, 666450,
   662983, 659499, 656016, 652532, 650790, 649048, 648177, 647306, 645565, 642081, 638598,
   635114, 631620, 628115, 624610, 621105, 619352, 617600, 617380, 617161, 616723, 615847,
   614095, 610590, 607086, 603581, 600070, 596555, 593039, 589524, 587766, 586008, 585129,
   584250, 582493, 578977, 575461, 571946, 568430, 564915, 561399, 557883, 556125, 554368,
   553489, 552610, 550852, 547337, 543821, 540305, 536795, 533290, 529785, 526280, 524527,
   522775, 522336, 521898, 521460, 521022, 519270, 515765, 512260, 508756, 505261, 501778,
   498294, 494810, 493068, 491327, 490456, 489585, 487843, 484359, 480876, 477392, 473924,
   470473, 467021, 463569, 461843, 460117, 459254, 458391, 456666, 453214, 449762, 446310,
   442880, 439470, 436061, 432652, 430947, 429242, 428815, 428389, 427963, 427537, 425833,
   422423, 419014, 415605, 412222, 408865, 405508, 402151, 400473, 398795, 398375, 397955,
   397535, 397116, 395438, 392081, 388725, 385368, 382043, 378749, 375455, 372161, 370514,
   368868, 368456, 368044, 367632, 367221, 365574, 362280, 358986, 355692, 352435, 349214,
   345993, 342772, 341161, 339551, 339148, 338745, 338342, 337940, 336330, 333110, 329889,
   326668, 323488, 320350, 317212, 314073, 312504, 310935, 310542, 310150, 309758, 309366,
   307797, 304659, 301520, 298382, 295290, 292244, 289198, 286152, 284629, 283867, 283106,
   282344, 281583, 281202, 280821, 280060, 277014, 273967, 270921, 267926, 264981, 262037,
   259092, 257619, 256883, 256147, 255411, 254675, 253939, 253203, 250258, 247313, 244369,
   241479, 238645, 235811, 232976, 231559, 230850, 230142, 229433, 228725, 228370, 228016,
   227308, 224473, 221639, 218805, 216030, 213314, 210599, 207884, 206526, 205847, 205168,
   204489, 203810, 203131, 202453, 199737, 197022, 194307, 191655, 189067, 186478, 183890,
   182596, 181949, 181302, 180654, 180007, 179360, 178713, 176125, 173537, 170949, 168428,
   165974, 163521, 161068, 159841, 159227, 158614, 158000, 157387, 156774, 156161, 153708,
   151254, 148801, 146419, 144108, 141797, 139485, 138329, 137751, 137174, 136596, 136018,
   135440, 134863, 132552, 130241, 127930, 125694, 123532, 121370, 119208, 118127, 117586,
   117046, 116505, 115965, 115694, 115424, 114884, 112723, 110561, 108399, 106315, 104309,
   102302, 100296, 99293, 98791, 98290, 97788, 97287, 97036, 96785, 96284, 95782, 95280, 94277,
   92271, 90265, 88339, 86494, 84649, 82804, 82343, 81882, 81421, 81190, 80960, 80498, 80037,
   79576, 79115, 78653, 78192, 77270, 75425, 73580, 71818, 70140, 68462, 67622, 66783, 66363,
   65944, 65524, 65314, 65105, 64895, 64685, 64265, 63845, 63426, 62587, 61748, 60070, 58391,
   56798, 55290, 53783, 53029, 52275, 51898, 51521, 51144, 50955, 50767, 50578, 50390, 50013,
   49636, 49260, 48506, 47752, 46244, 44736, 43315, 41981, 40646, 39979, 39312, 38978, 38644,
   38477, 38310, 38143, 37977, 37810, 37643, 37476, 37310, 36976, 36643, 36309, 35975, 35308,
   33974, 32639, 31391, 30229, 29067, 28486, 27905, 27614, 27324, 27178, 27033, 26888, 26743,
   26597, 26452, 26307, 26162, 26016, 25871, 25581, 25000, 24419, 23257, 22095, 21012, 20009,
   19006, 18504, 18253, 18003, 17752, 17626, 17501, 17375, 17250, 17187, 17124, 17061, 16999,
   16936, 16873, 16810, 16748, 16685, 16622, 16497, 16371, 16246, 15996, 15494, 14993, 14742,
   14491, 13990, 12987, 11847, 11209, 10571, 10252, 9933, 9614, 9454, 9295, 9215, 9135, 9055,
   8976, 8896, 8816, 8776, 8736, 8696, 8657, 8617, 8577, 8537, 8497, 8457, 8417, 8377, 8338,
   8298, 8258, 8218, 8178, 8138, 8098, 8058, 8019, 7979, 7939, 7899, 7859, 7819, 7779, 7739,
   7700, 7620, 7540, 7460, 7381, 7301, 7221, 7062, 6902, 6743, 6423, 6104, 5466, 4190, 2914,
   1638, 1000, 0]

def pts34 : List ℕ :=
  [1270423, 1269423, 1268327, 1268133, 1267939, 1267842, 1267793, 1267745, 1267720, 1267696,
   1267648, 1267552, 1267358, 1267164, 1266970, 1266777, 1266486, 1266099, 1265712, 1265325,
   1265228, 1265131, 1265034, 1264938, 1264551, 1264164, 1263778, 1263391, 1262908, 1262328,
   1261749, 1261170, 1261025, 1260880, 1260807, 1260735, 1260591, 1260012, 1259433, 1258854,
   1258275, 1257600, 1256830, 1256061, 1255291, 1254906, 1254809, 1254713, 1254617, 1254521,
   1253752, 1252982, 1252212, 1251443, 1250579, 1249621, 1248662, 1247704, 1247225, 1247105,
   1246985, 1246865, 1246746, 1246267, 1245788, 1244830, 1243872, 1242914, 1241863, 1240719,
   1239575, 1238431, 1237859, 1237573, 1237287, 1237001, 1236715, 1236143, 1234999, 1233855,
   1232711, 1231475, 1230149, 1228822, 1227495, 1226832, 1226500, 1226169, 1226003, 1225837,
   1225505, 1224842, 1223515, 1222189, 1220862, 1219446, 1217940, 1216434, 1214929, 1214176,
   1213799, 1213423, 1213234, 1213046, 1212670, 1211917, 1210411, 1208906, 1207400, 1205807,
   1204126, 1202445, 1200765, 1199924, 1199504, 1199084, 1198873, 1198663, 1198243, 1197403,
   1195723, 1194042, 1192361, 1190596, 1188745, 1186894, 1185043, 1184117, 1183654, 1183192,
   1182729, 1182266, 1181341, 1179490, 1177639, 1175788, 1173854, 1171838, 1169822, 1167805,
   1166797, 1165789, 1164781, 1163773, 1161757, 1159740, 1157724, 1155628, 1153452, 1151276,
   1149100, 1148012, 1146924, 1145836, 1144748, 1142572, 1140396, 1138220, 1135967, 1133638,
   1131308, 1128978, 1127813, 1127230, 1126648, 1126356, 1126065, 1125483, 1124319, 1121989,
   1119659, 1117329, 1114926, 1112449, 1109972, 1107495, 1106256, 1105017, 1103778, 1102540,
   1100063, 1097586, 1095109, 1092562, 1089944, 1087326, 1084708, 1083399, 1082745, 1082091,
   1081763, 1081436, 1080782, 1079473, 1076855, 1074238, 1071620, 1068936, 1066184, 1063433,
   1060682, 1059306, 1058618, 1057931, 1057243, 1056555, 1055180, 1052429, 1049678, 1046927,
   1044113, 1041236, 1038359, 1035482, 1034043, 1033324, 1032605, 1032245, 1031885, 1031166,
   1029728, 1026851, 1023974, 1021097, 1018161, 1015166, 1012171, 1009176, 1007678, 1006929,
   1006181, 1005432, 1004683, 1003186, 1000191, 997196, 994201, 991151, 988046, 984941, 981837,
   980284, 979508, 978732, 978343, 977955, 977179, 975627, 972522, 969418, 966313, 963157,
   959951, 956745, 953539, 951936, 951134, 950333, 949932, 949531, 948730, 947127, 943921,
   940715, 937509, 934257, 930958, 927660, 924361, 922712, 921887, 921063, 920238, 919413,
   917764, 914466, 911167, 907869, 904529, 901147, 897765, 894383, 892692, 891846, 891001,
   890578, 890155, 889310, 887619, 884237, 880855, 877473, 874054, 870598, 867142, 863686,
   861957, 861093, 860229, 859365, 858501, 856773, 853317, 849861, 846405, 842916, 839396,
   835875, 832354, 830593, 829713, 828833, 828392, 827952, 827072, 825312, 821791, 818271,
   814750, 811201, 807626, 804050, 800474, 798686, 796898, 796004, 795110, 793322, 789746,
   786170, 782594, 778996, 775375, 771754, 768132, 766321, 764511, 764058, 763605, 762700,
   760890, 757269, 753648, 750027, 746388, 742732, 739075, 735419, 733590, 731762, 730848,
   729934, 728106, 724449, 720793, 717136, 713467, 709785, 706104, 702422, 700581, 698740,
   698509, 698279, 697819, 696899, 695058, 691377, 687695, 684013, 680324, 676627, 672930,
   669233, 667384, 665536, 665304, 665073, 664611, 663687, 661839, 658142, 654445, 650748,
   647048, 643346, 639644, 635942, 634091, 632240, 631777, 631314, 630851, 630389, 628538,
   624836, 621134, 617432, 613732, 610035, 606338, 602641, 600792, 598944, 598481, 598019,
   597557, 597095, 595247, 591550, 587853, 584156, 580467, 576785, 573103, 569422, 567581,
   565740, 565279, 564819, 564359, 563899, 562058, 558376, 554694, 551013, 547343, 543687,
   540030, 536374, 534545, 532717, 531803, 530889, 529061, 525404, 521748, 518091, 514452,
   510831, 507210, 503589, 501778, 500872, 499967, 499514, 499061, 498608, 498156, 496346,
   492725, 489104, 485483, 481884, 478308, 474732, 471156, 469368, 467580, 466686, 465792,
   464004, 460428, 456852, 453276, 449727, 446206, 442685, 439165, 437404, 435644, 435203,
   434763, 434323, 433883, 432123, 428602, 425081, 421560, 418071, 414615, 411158, 407702,
   405974, 404246, 403813, 403381, 402949, 402517, 400789, 397333, 393877, 390420, 387001,
   383619, 380237, 376855, 375164, 373473, 372627, 371781, 370090, 366708, 363326, 359944,
   356603, 353305, 350006, 346707, 345057, 343408, 342583, 341758, 340109, 336811, 333512,
   330213, 326961, 323754, 320548, 317341, 315738, 314135, 313734, 313333, 312932, 312532,
   310929, 307722, 304516, 301310, 298154, 295049, 291944, 288839, 287286, 286509, 285733,
   284956, 284180, 283404, 282628, 279523, 276418, 273313, 270262, 267267, 264272, 261276,
   259778, 259029, 258281, 257532, 256783, 256408, 256034, 255285, 252290, 249294, 246299,
   243362, 240485, 237607, 234730, 233291, 232571, 231852, 231132, 230413, 229694, 228975,
   226097, 223219, 220342, 217527, 214775, 212024, 209272, 207896, 207208, 206520, 205832,
   205144, 204456, 203768, 201016, 198265, 195513, 192828, 190209, 187590, 184972, 183662,
   183007, 182353, 181698, 181044, 180716, 180389, 179735, 178425, 177116, 174498, 171879,
   169331, 166852, 164374, 161896, 160657, 160037, 159418, 158798, 158179, 157869, 157559,
   156940, 155700, 154461, 151983, 149505, 147100, 144769, 142438, 140107, 138941, 138358,
   137776, 137193, 136610, 136318, 136027, 135445, 133114, 130783, 128452, 126197, 124019,
   121842, 119664, 118575, 118030, 117486, 116941, 116397, 115853, 115309, 114220, 113131,
   110953, 108775, 106677, 104659, 102640, 100621, 99612, 99107, 98603, 98098, 97593, 97088,
   96584, 95575, 94566, 92547, 90528, 88592, 86738, 84884, 83029, 82565, 82102, 81638, 81406,
   81175, 80711, 80248, 80016, 79784, 79321, 78394, 77467, 75613, 73758, 71989, 70303, 68618,
   67775, 66933, 66511, 66090, 65669, 65458, 65248, 65037, 64826, 64405, 63983, 63562, 63351,
   63140, 62719, 61877, 60192, 58507, 56908, 55395, 53883, 53126, 52370, 51992, 51614, 51236,
   51047, 50858, 50668, 50479, 50101, 49723, 49345, 49155, 48966, 48588, 47832, 46320, 44807,
   43382, 42044, 40707, 40038, 39369, 39034, 38700, 38532, 38365, 38198, 38031, 37863, 37696,
   37529, 37362, 37028, 36694, 36526, 36359, 36025, 35356, 34018, 32680, 31429, 30265, 29101,
   28519, 27937, 27646, 27355, 27209, 27064, 26918, 26773, 26627, 26482, 26336, 26191, 26045,
   25900, 25609, 25027, 24445, 23281, 22117, 21032, 20028, 19024, 18521, 18270, 18019, 17768,
   17642, 17517, 17391, 17266, 17203, 17140, 17077, 17015, 16952, 16889, 16826, 16764, 16701,
   16638, 16513, 16387, 16262, 16011, 15508, 15006, 14755, 14504, 14002, 12998, 11857, 11218,
   10580, 10260, 9941, 9621, 9461, 9302, 9222, 9142, 9062, 8982, 8902, 8822, 8782, 8742, 8702,
   8663, 8623, 8583, 8543, 8503, 8463, 8423, 8403, 8383, 8363, 8344, 8324, 8304, 8284, 8264,
   8244, 8224, 8204, 8184, 8164, 8144, 8104, 8064, 8025, 7985, 7945, 7905, 7865, 7825, 7785,
   7745, 7705, 7625, 7545, 7465, 7386, 7306, 7226, 7067, 6907, 6748, 6428, 6109, 5470, 4193,
   2916, 1639, 1000, 0]

def pts35 : List ℕ :=
  [1400773, 1399773, 1398676, 1398482, 1398288, 1398095, 1398070, 1398046, 1397998, 1397901,
   1397707, 1397513, 1397320, 1397126, 1396836, 1396449, 1396062, 1395675, 1395578, 1395481,
   1395384, 1395288, 1394901, 1394514, 1394127, 1393740, 1393256, 1392677, 1392098, 1391518,
   1391373, 1391228, 1391083, 1390939, 1390649, 1390360, 1389781, 1389201, 1388622, 1387947,
   1387177, 1386407, 1385637, 1385252, 1385155, 1385059, 1384963, 1384867, 1384481, 1384096,
   1383326, 1382556, 1381786, 1380921, 1379962, 1379003, 1378044, 1377564, 1377444, 1377324,
   1377085, 1376845, 1376605, 1376126, 1375167, 1374208, 1373249, 1372196, 1371051, 1369905,
   1368759, 1368186, 1367900, 1367614, 1367327, 1367041, 1366468, 1365322, 1364177, 1363031,
   1361793, 1360464, 1359135, 1357805, 1357140, 1356808, 1356476, 1356309, 1356143, 1355811,
   1355147, 1353817, 1352488, 1351158, 1349739, 1348229, 1346719, 1345210, 1344455, 1344077,
   1343700, 1343511, 1343322, 1342945, 1342190, 1340680, 1339170, 1337661, 1336063, 1334376,
   1332690, 1331003, 1330160, 1329738, 1329317, 1328895, 1328473, 1327630, 1325944, 1324258,
   1322571, 1320799, 1318940, 1317081, 1315222, 1314292, 1313827, 1313363, 1312898, 1312433,
   1311504, 1309645, 1307786, 1305927, 1303985, 1301958, 1299931, 1297905, 1296891, 1296384,
   1295878, 1295371, 1294864, 1293851, 1291824, 1289798, 1287771, 1285663, 1283473, 1281284,
   1279094, 1277999, 1277452, 1276905, 1276631, 1276357, 1275810, 1274715, 1272526, 1270336,
   1268147, 1265878, 1263532, 1261185, 1258838, 1257664, 1257077, 1256491, 1255904, 1255317,
   1254144, 1251797, 1249450, 1247103, 1244681, 1242182, 1239684, 1237186, 1235936, 1234687,
   1233438, 1232189, 1229690, 1227192, 1224694, 1222123, 1219479, 1216835, 1214191, 1212869,
   1212208, 1211548, 1210887, 1210226, 1208904, 1206260, 1203617, 1200973, 1198260, 1195477,
   1192695, 1189912, 1188521, 1187130, 1185739, 1184348, 1181565, 1178783, 1176000, 1173152,
   1170238, 1167323, 1164409, 1162952, 1161495, 1160038, 1158581, 1155666, 1152752, 1149838,
   1146861, 1143822, 1140783, 1137745, 1136225, 1135465, 1134706, 1133946, 1133186, 1131667,
   1128628, 1125589, 1122550, 1119453, 1116297, 1113141, 1109986, 1108408, 1106830, 1105252,
   1103674, 1100518, 1097362, 1094206, 1090996, 1087731, 1084466, 1081201, 1079568, 1078752,
   1077936, 1077527, 1077119, 1076303, 1074671, 1071406, 1068141, 1064875, 1061560, 1058194,
   1054828, 1051462, 1049779, 1048937, 1048096, 1047254, 1046412, 1044729, 1041363, 1037997,
   1034631, 1031219, 1027760, 1024301, 1020842, 1019113, 1018248, 1017384, 1016519, 1015654,
   1013925, 1010466, 1007007, 1003549, 1000048, 996505, 992962, 989419, 987647, 986761, 985876,
   984990, 984104, 982333, 978790, 975248, 971705, 968124, 964506, 960888, 957270, 955461,
   954556, 953652, 952747, 951842, 950033, 946415, 942797, 939179, 935528, 931843, 928159,
   924474, 922632, 921711, 920790, 920329, 919868, 918947, 917105, 913421, 909737, 906052,
   902339, 898598, 894856, 891114, 889243, 888308, 887373, 886905, 886437, 885502, 883631,
   879890, 876148, 872407, 868641, 864852, 861062, 857273, 855378, 854430, 853483, 853009,
   852535, 851588, 849694, 845905, 842115, 838326, 834517, 830690, 826862, 823034, 821120,
   819206, 818249, 817292, 815378, 811550, 807723, 803895, 800053, 796196, 792339, 788483,
   786554, 784626, 784384, 784143, 783661, 782697, 780769, 776912, 773056, 769199, 765333,
   761457, 757581, 753705, 751767, 750798, 749829, 748860, 747891, 745953, 742077, 738201,
   734325, 730444, 726558, 722673, 718787, 716844, 715872, 714901, 714415, 713929, 712958,
   711016, 707130, 703244, 699359, 695473, 691587, 687702, 683816, 681873, 680901, 679930,
   679444, 678958, 678472, 677987, 676045, 672159, 668273, 664388, 660507, 656631, 652755,
   648879, 646941, 645003, 644034, 643065, 641127, 637251, 633375, 629498, 625632, 621775,
   617919, 614062, 612133, 610205, 609722, 609240, 608758, 608276, 606348, 602492, 598635,
   594778, 590936, 587108, 583280, 579452, 577538, 575624, 574667, 573710, 571797, 567969,
   564141, 560313, 556504, 552715, 548925, 545136, 543241, 541346, 540872, 540398, 539924,
   539451, 537557, 533767, 529978, 526188, 522423, 518681, 514939, 511198, 509327, 507456,
   506988, 506520, 506052, 505585, 503714, 499973, 496231, 492489, 488776, 485092, 481407,
   477723, 475880, 474038, 473577, 473116, 472655, 472195, 470353, 466669, 462984, 459300,
   455648, 452030, 448412, 444793, 442984, 441175, 440722, 440270, 439818, 439366, 437557,
   433938, 430320, 426702, 423121, 419578, 416035, 412492, 410720, 408949, 408063, 407177,
   405406, 401863, 398320, 394776, 391275, 387816, 384357, 380898, 379168, 377439, 376574,
   375709, 373980, 370521, 367062, 363603, 360191, 356824, 353458, 350092, 348408, 346725,
   346304, 345883, 345462, 345042, 343359, 339992, 336626, 333260, 329944, 326678, 323413,
   320148, 318515, 316882, 316473, 316065, 315657, 315249, 313617, 310352, 307086, 303821,
   300610, 297454, 294298, 291141, 289563, 288774, 287985, 287196, 286801, 286407, 285618,
   284829, 281673, 278516, 275360, 272262, 269223, 266184, 263144, 261624, 260864, 260105,
   259345, 258965, 258585, 257825, 257066, 254026, 250987, 247948, 244971, 242056, 239141,
   236226, 234768, 234039, 233311, 232582, 231853, 231488, 231124, 230396, 227482, 224567,
   221652, 218803, 216020, 213237, 210453, 209061, 208365, 207670, 206974, 206278, 205582,
   204887, 202104, 199321, 196538, 193824, 191179, 188535, 185890, 184568, 183907, 183246,
   182584, 181923, 181262, 180601, 177956, 175312, 172667, 170095, 167596, 165096, 162597,
   161347, 160722, 160097, 159472, 158847, 158222, 157598, 156348, 155098, 152599, 150099,
   147676, 145327, 142979, 140631, 139457, 138870, 138283, 137695, 137108, 136814, 136521,
   135934, 133586, 131238, 128890, 126620, 124429, 122237, 120046, 118950, 118402, 117855,
   117307, 116759, 116211, 115663, 113472, 111281, 109090, 106979, 104950, 102921, 100892,
   99877, 99370, 98863, 98355, 97848, 97341, 96834, 96326, 95819, 94805, 92776, 90747, 88801,
   86939, 85077, 83215, 82749, 82284, 81818, 81585, 81353, 80887, 80422, 80189, 79956, 79491,
   78560, 77629, 75767, 73904, 72128, 70437, 68746, 67900, 67055, 66632, 66209, 65786, 65575,
   65364, 65152, 64941, 64518, 64095, 63673, 63250, 62827, 61982, 60291, 58600, 56996, 55480,
   53963, 53204, 52446, 52067, 51688, 51309, 51119, 50930, 50740, 50550, 50171, 49792, 49413,
   49223, 49033, 48654, 47896, 46380, 44863, 43435, 42094, 40754, 40083, 39413, 39078, 38743,
   38575, 38408, 38240, 38073, 37905, 37738, 37570, 37403, 37068, 36733, 36565, 36397, 36062,
   35392, 34052, 32711, 31458, 30292, 29127, 28544, 27961, 27669, 27378, 27232, 27086, 26940,
   26795, 26649, 26503, 26357, 26212, 26066, 25920, 25629, 25337, 25046, 24464, 23881, 23298,
   22132, 21046, 20041, 19036, 18533, 18281, 18030, 17778, 17652, 17527, 17401, 17276, 17213,
   17150, 17087, 17025, 16962, 16899, 16836, 16773, 16710, 16647, 16522, 16396, 16271, 16020,
   15517, 15015, 14512, 14009, 13004, 11862, 11223, 10584, 10264, 9945, 9625, 9465, 9306, 9226,
   9146, 9066, 8986, 8906, 8826, 8786, 8746, 8706, 8667, 8627, 8587, 8547, 8507, 8467, 8427,
   8407, 8387, 8367, 8348, 8328, 8308, 8288, 8268, 8248, 8228, 8208, 8188, 8168, 8148, 8108,
   8068, 8029, 7989, 7949, 7909, 7869, 7829, 7789, 7749, 7709, 7629, 7549, 7469, 7390, 7310,
   7230, 7070, 6910, 6751, 6431, 6112, 5473, 4195, 2917, 1639, 1000, 0]

def pts36 : List ℕ :=
  [1581727, 1581696, 1581664, 1581633, 1581617, 1581601, 1581570, 1581538, 1581507, 1581475,
   1581444, 1581412, 1581381, 1581268, 1581074, 1580881, 1580784, 1580687, 1580494, 1580300,
   1580106, 1579913, 1579719, 1579429, 1579042, 1578655, 1578269, 1577882, 1577495, 1577108,
   1576721, 1576335, 1575852, 1575273, 1574694, 1574114, 1573535, 1573245, 1572956, 1572377,
   1571798, 1571219, 1570544, 1569774, 1569004, 1568234, 1567464, 1567078, 1566693, 1565923,
   1565153, 1564383, 1563518, 1562559, 1561599, 1560640, 1560160, 1559680, 1558721, 1557761,
   1556802, 1555842, 1554789, 1553642, 1552495, 1551349, 1550202, 1549055, 1547908, 1546761,
   1545615, 1544376, 1543044, 1541713, 1540381, 1539715, 1539049, 1537718, 1536386, 1535055,
   1533723, 1532301, 1530788, 1529274, 1527761, 1526248, 1524735, 1523221, 1521708, 1520195,
   1518592, 1516900, 1515208, 1513517, 1511825, 1510133, 1508441, 1506750, 1505058, 1503279,
   1501412, 1499546, 1497679, 1496745, 1495812, 1493946, 1492079, 1490213, 1488346, 1486394,
   1484357, 1482320, 1480283, 1478246, 1477227, 1476208, 1474171, 1472134, 1470097, 1467976,
   1465773, 1463570, 1461366, 1459163, 1456960, 1454756, 1452553, 1450349, 1448065, 1445701,
   1443336, 1440971, 1438607, 1436242, 1433877, 1431512, 1429148, 1426705, 1424184, 1421663,
   1419142, 1416622, 1414101, 1411580, 1409059, 1406538, 1403942, 1401271, 1398599, 1395928,
   1394592, 1393256, 1390585, 1387913, 1385242, 1382571, 1379827, 1377011, 1374194, 1371378,
   1368562, 1365746, 1362930, 1360114, 1357297, 1354412, 1351457, 1348503, 1345548, 1342593,
   1341115, 1339638, 1336684, 1333729, 1330774, 1327754, 1324667, 1321580, 1318493, 1315407,
   1312320, 1309233, 1306147, 1303060, 1299910, 1296698, 1293486, 1290274, 1287062, 1283851,
   1280639, 1277427, 1274215, 1270943, 1267613, 1264283, 1260953, 1257623, 1254293, 1250962,
   1247632, 1244302, 1240916, 1237475, 1234034, 1230593, 1227152, 1223711, 1220270, 1216829,
   1213388, 1209895, 1206351, 1202807, 1199262, 1195718, 1192174, 1188629, 1185085, 1181541,
   1177948, 1174309, 1170669, 1167029, 1163389, 1159749, 1156109, 1152469, 1148829, 1145146,
   1141418, 1137691, 1133964, 1132100, 1130236, 1126509, 1122781, 1119054, 1115327, 1111560,
   1107753, 1103946, 1100140, 1096333, 1092526, 1088719, 1084913, 1081106, 1077264, 1073386,
   1069508, 1065631, 1063692, 1061753, 1059814, 1057875, 1053998, 1050120, 1046242, 1042334,
   1038394, 1034453, 1030513, 1026573, 1022633, 1018693, 1014753, 1010813, 1006846, 1002852,
   998858, 994864, 992867, 990870, 986877, 982883, 978889, 974895, 970879, 966840, 962801, 958762,
   954723, 950684, 946645, 942607, 938568, 934511, 930436, 926361, 922286, 918211, 916173, 914136,
   910061, 905986, 901911, 897823, 893720, 889618, 885516, 881414, 877312, 873210, 869108, 865006,
   860894, 856774, 852654, 848534, 846473, 844413, 840293, 836173, 832052, 827932, 823807, 819678,
   815549, 811419, 807290, 803161, 799031, 794902, 790773, 786643, 782514, 778385, 774255, 770126,
   765997, 761867, 757738, 753608, 749484, 745363, 741243, 737123, 735062, 733002, 728882, 724762,
   720642, 716521, 712410, 708308, 704206, 700104, 698052, 696001, 691899, 687797, 683695, 679593,
   675504, 671429, 667354, 663279, 659204, 655129, 651054, 646979, 642904, 638847, 634808, 630769,
   626730, 622691, 618652, 614614, 610575, 606536, 602519, 598525, 594531, 590537, 586544, 584547,
   582550, 578556, 574562, 570568, 566601, 562660, 558720, 554780, 550840, 546900, 542959, 539019,
   535079, 531170, 527292, 523414, 519537, 517598, 515659, 511781, 507903, 504026, 500148, 496305,
   492499, 488692, 484885, 481078, 477271, 473464, 469657, 465851, 462083, 458356, 454628, 450901,
   449037, 447173, 443446, 439718, 435990, 432263, 428579, 424939, 421299, 417659, 414019, 410379,
   406739, 403099, 399458, 395866, 392321, 388777, 385232, 381688, 379915, 378143, 374598, 371054,
   367509, 364016, 360575, 357134, 353692, 350251, 346810, 343368, 339927, 336486, 333100, 329769,
   326439, 323108, 319778, 318112, 316447, 313117, 309786, 306456, 303184, 299972, 296759, 293547,
   290335, 288728, 287122, 283910, 280697, 277485, 274335, 271248, 268161, 265074, 263530, 261986,
   258899, 255812, 252725, 249637, 246616, 243661, 240706, 237750, 234795, 231840, 228885, 225929,
   222974, 220088, 217271, 214454, 211637, 210228, 208820, 206004, 203187, 200370, 197553, 194808,
   192136, 189464, 186791, 184119, 181447, 180110, 178774, 176102, 173430, 170833, 168311, 165789,
   163267, 160745, 158223, 156962, 155701, 153179, 150657, 148213, 145847, 143481, 141115, 138749,
   136383, 135200, 134017, 131651, 129285, 126999, 124794, 122589, 120383, 118178, 115973, 113768,
   111563, 109358, 107235, 105196, 103156, 101117, 99077, 97038, 94998, 92958, 90919, 88964,
   87094, 85225, 83355, 81485, 79615, 77746, 75876, 74006, 72223, 70527, 68830, 67134, 65437,
   63741, 62045, 60348, 58652, 57044, 55524, 54003, 52483, 50963, 50203, 49443, 47923, 46402,
   44882, 43451, 42108, 40766, 39423, 38081, 37409, 36738, 36402, 36066, 35395, 34053, 32710,
   31455, 30288, 29121, 27954, 26787, 25620, 25036, 24453, 23286, 22119, 21033, 20027, 19021,
   18015, 17512, 17009, 16506, 16003, 14997, 13991, 12985, 11844, 10569, 9931, 9612, 9293, 8974,
   8655, 8336, 8017, 7698, 7379, 7060, 6741, 6103, 5465, 4190, 2914, 1638, 1000, 0]

def pts37 : List ℕ :=
  [1776523, 1776508, 1776494, 1776480, 1776466, 1776452, 1776438, 1776423, 1776409, 1776395,
   1776381, 1776367, 1776263, 1776069, 1775876, 1775779, 1775682, 1775585, 1775489, 1775295,
   1775101, 1774908, 1774714, 1774424, 1774037, 1773650, 1773456, 1773263, 1773166, 1773069,
   1772972, 1772876, 1772490, 1772103, 1771716, 1771329, 1770846, 1770267, 1769687, 1769108,
   1768963, 1768818, 1768529, 1768239, 1767949, 1767370, 1766791, 1766211, 1765536, 1764766,
   1763995, 1763224, 1762839, 1762454, 1762068, 1761683, 1760912, 1760142, 1759371, 1758506,
   1757545, 1756585, 1755624, 1755144, 1754664, 1754423, 1754183, 1753703, 1752743, 1751782,
   1750822, 1749767, 1748619, 1747470, 1746322, 1745747, 1745173, 1744599, 1744025, 1742876,
   1741728, 1740580, 1739338, 1738004, 1736670, 1735336, 1734669, 1734335, 1734002, 1733668,
   1733334, 1732667, 1731333, 1729999, 1728665, 1727239, 1725722, 1724205, 1722688, 1721929,
   1721170, 1720411, 1719653, 1718136, 1716619, 1715101, 1713494, 1711797, 1710099, 1708402,
   1707553, 1706705, 1705856, 1705007, 1703310, 1701612, 1699915, 1698129, 1696255, 1694381,
   1692507, 1691570, 1690633, 1690164, 1689695, 1688758, 1686884, 1685010, 1683136, 1681175,
   1679128, 1677081, 1675033, 1674009, 1672986, 1672474, 1671962, 1670939, 1668891, 1666844,
   1664797, 1662665, 1660448, 1658232, 1656016, 1654907, 1653799, 1652691, 1651583, 1649366,
   1647150, 1644933, 1642635, 1640253, 1637872, 1635491, 1634300, 1633110, 1632514, 1631919,
   1630729, 1628347, 1625966, 1623585, 1621124, 1618582, 1616041, 1613500, 1612229, 1610958,
   1610322, 1609687, 1608417, 1605876, 1603334, 1600793, 1598174, 1595477, 1592781, 1590085,
   1588736, 1587388, 1586040, 1584692, 1581995, 1579299, 1576602, 1573831, 1570984, 1568138,
   1565292, 1563868, 1562445, 1561022, 1559599, 1556753, 1553906, 1551060, 1548141, 1545151,
   1542160, 1539169, 1537674, 1536179, 1535431, 1534683, 1533188, 1530197, 1527207, 1524216,
   1521156, 1518027, 1514898, 1511769, 1510204, 1508640, 1507857, 1507075, 1505511, 1502382,
   1499252, 1496123, 1492928, 1489667, 1486405, 1483144, 1481513, 1479882, 1479066, 1478251,
   1476621, 1473360, 1470098, 1466837, 1463512, 1460125, 1456738, 1453350, 1451656, 1449963,
   1448269, 1446575, 1443188, 1439801, 1436413, 1432966, 1429460, 1425953, 1422446, 1420693,
   1418940, 1418063, 1417186, 1415433, 1411926, 1408420, 1404913, 1401350, 1397731, 1394112,
   1390493, 1388683, 1386874, 1385969, 1385064, 1383255, 1379636, 1376016, 1372397, 1368726,
   1365001, 1361277, 1357552, 1355690, 1354759, 1353828, 1353362, 1352896, 1351965, 1350103,
   1346379, 1342654, 1338930, 1335156, 1331334, 1327511, 1323689, 1321777, 1319866, 1317955,
   1316044, 1312221, 1308399, 1304576, 1300708, 1296795, 1292882, 1288969, 1287012, 1285056,
   1284077, 1283099, 1281143, 1277230, 1273317, 1269404, 1265449, 1261453, 1257457, 1253461,
   1251463, 1249465, 1247467, 1245469, 1241473, 1237477, 1233481, 1229447, 1225376, 1221305,
   1217234, 1215198, 1213163, 1211127, 1209091, 1205020, 1200949, 1196878, 1192773, 1188635,
   1184497, 1180359, 1178289, 1176220, 1174151, 1172082, 1167944, 1163805, 1159667, 1155499,
   1151302, 1147105, 1142908, 1140809, 1138710, 1136611, 1134513, 1130316, 1126118, 1121921,
   1117698, 1113450, 1109202, 1104954, 1102830, 1100706, 1098582, 1096458, 1092210, 1087962,
   1083714, 1079444, 1075154, 1070863, 1066572, 1064427, 1062282, 1061209, 1060136, 1057991,
   1053700, 1049410, 1045119, 1040812, 1036487, 1032162, 1027837, 1025675, 1023513, 1022431,
   1021350, 1019188, 1014863, 1010539, 1006214, 1001876, 997526, 993176, 988825, 986650, 984475,
   983387, 982300, 980125, 975774, 971424, 967074, 962715, 958347, 953980, 949612, 947428, 945245,
   943061, 940877, 936510, 932142, 927775, 923403, 919027, 914651, 910275, 908087, 905899, 903711,
   901523, 897147, 892771, 888395, 884019, 879643, 875267, 870891, 868703, 866515, 864327, 862139,
   857763, 853387, 849011, 844639, 840271, 835904, 831536, 829352, 827169, 824985, 822801, 818434,
   814066, 809699, 805340, 800990, 796639, 792289, 790114, 787939, 786851, 785763, 783588, 779238,
   774887, 770537, 766199, 761875, 757550, 753225, 751062, 748900, 746738, 744576, 740251, 735926,
   731601, 727294, 723003, 718712, 714422, 712276, 710131, 709058, 707985, 705840, 701550, 697259,
   692968, 688699, 684451, 680203, 675955, 673830, 671706, 669582, 667458, 663210, 658962, 654714,
   650491, 646293, 642096, 637899, 635800, 633701, 632651, 631602, 629504, 625307, 621109, 616912,
   612744, 608606, 604467, 600329, 598260, 596191, 595156, 594121, 592052, 587914, 583775, 579637,
   575532, 571461, 567390, 563319, 561283, 559247, 557211, 555176, 551105, 547034, 542962, 538929,
   534932, 530936, 526940, 524942, 522944, 520946, 519947, 518948, 514952, 510955, 506959, 503005,
   499091, 495178, 491265, 489308, 487352, 485395, 483438, 479525, 475612, 471698, 467830, 464008,
   460185, 456362, 454451, 452540, 451584, 450628, 448717, 444894, 441072, 437249, 433475, 429750,
   426026, 422301, 420438, 418576, 416714, 414852, 411127, 407402, 403678, 400006, 396386, 392767,
   389148, 387338, 385528, 383718, 381909, 378290, 374670, 371051, 367488, 363981, 360474, 356967,
   355213, 353460, 352583, 351706, 349953, 346446, 342939, 339432, 335985, 332597, 329209, 325822,
   324128, 322434, 320740, 319046, 315658, 312271, 308883, 305558, 302296, 299035, 295773, 294142,
   292511, 291695, 290880, 290472, 290064, 289249, 285987, 282725, 279464, 276268, 273138, 270009,
   266879, 265314, 263750, 262185, 260620, 257490, 254361, 251231, 248171, 245180, 242188, 239197,
   237701, 236206, 235458, 234710, 234336, 233962, 233215, 230223, 227232, 224241, 221322, 218475,
   215628, 212780, 211356, 209933, 209221, 208865, 208687, 208509, 208153, 207797, 207086, 204239,
   201392, 198545, 195773, 193076, 190378, 187681, 186332, 184983, 184308, 183634, 182960, 182286,
   179589, 176891, 174194, 171574, 169032, 166489, 163947, 162675, 161404, 160133, 159497, 158862,
   156320, 153777, 151235, 148772, 146390, 144007, 141624, 140433, 139242, 138646, 138050, 137752,
   137454, 136859, 134477, 132094, 129711, 127411, 125193, 122975, 120756, 119647, 118538, 117429,
   116874, 116320, 114102, 111884, 109665, 107531, 105482, 103432, 101382, 100357, 99333, 98308,
   97795, 97283, 96258, 95233, 93184, 91134, 89171, 87293, 85416, 83538, 82599, 81661, 80722,
   79784, 79314, 78845, 77906, 76029, 74151, 72362, 70660, 68958, 67256, 66405, 65554, 64703,
   64277, 63852, 63001, 62150, 60448, 58746, 57133, 55609, 54085, 52561, 51799, 51418, 51037,
   50274, 49512, 48750, 47988, 46464, 44940, 43505, 42160, 40815, 40142, 39470, 38797, 38460,
   38124, 37787, 37451, 36779, 36442, 36106, 35434, 34089, 32743, 31486, 30318, 29149, 28564,
   27980, 27688, 27396, 27104, 26812, 26519, 26227, 25643, 25059, 24475, 23890, 23306, 22137,
   21049, 20043, 19036, 18532, 18029, 17777, 17525, 17273, 17147, 17022, 16896, 16770, 16518,
   16266, 16015, 15511, 15008, 14756, 14504, 14001, 12994, 11852, 11213, 10575, 10256, 9937, 9618,
   9458, 9299, 9139, 8979, 8899, 8819, 8739, 8660, 8580, 8500, 8420, 8341, 8261, 8181, 8101, 8022,
   7942, 7862, 7782, 7702, 7542, 7383, 7223, 7064, 6745, 6426, 6107, 5469, 4192, 2915, 1638, 1000,
   0]

def pts38 : List ℕ :=
  [1984907, 1983907, 1982810, 1982617, 1982423, 1982326, 1982229, 1982132, 1982036, 1981842,
   1981648, 1981455, 1981261, 1980971, 1980584, 1980197, 1979810, 1979713, 1979616, 1979519,
   1979423, 1979036, 1978649, 1978262, 1977875, 1977392, 1976812, 1976233, 1975653, 1975508,
   1975363, 1975074, 1974784, 1974494, 1973915, 1973335, 1972755, 1972080, 1971309, 1970538,
   1969767, 1969381, 1969188, 1969091, 1968995, 1968224, 1967453, 1966682, 1965911, 1965044,
   1964083, 1963121, 1962160, 1961679, 1961199, 1960718, 1960237, 1959276, 1958314, 1957353,
   1956297, 1955147, 1953997, 1952847, 1952272, 1951697, 1951122, 1950547, 1949397, 1948247,
   1947097, 1945854, 1944517, 1943181, 1941844, 1941175, 1940507, 1940173, 1939839, 1939171,
   1937834, 1936498, 1935161, 1933733, 1932212, 1930691, 1929170, 1928409, 1927649, 1926889,
   1926129, 1924608, 1923087, 1921566, 1919955, 1918253, 1916550, 1914848, 1913997, 1913571,
   1913146, 1912720, 1912294, 1911443, 1909741, 1908039, 1906336, 1904545, 1902664, 1900783,
   1898902, 1897961, 1897021, 1896550, 1896080, 1895140, 1893260, 1891379, 1889498, 1887529,
   1885473, 1883417, 1881361, 1880333, 1879305, 1878277, 1877249, 1875193, 1873137, 1871081,
   1868939, 1866711, 1864483, 1862255, 1861141, 1860028, 1858914, 1857800, 1855572, 1853344,
   1851116, 1848805, 1846409, 1844014, 1841618, 1840420, 1839223, 1838025, 1836827, 1834432,
   1832036, 1829641, 1827164, 1824605, 1822046, 1819487, 1818207, 1817567, 1816927, 1816287,
   1815647, 1814368, 1811809, 1809250, 1806691, 1804053, 1801335, 1798617, 1795899, 1794539,
   1793180, 1792500, 1791821, 1790462, 1787744, 1785026, 1782308, 1779513, 1776641, 1773768,
   1770896, 1769460, 1768742, 1768024, 1767664, 1767305, 1766587, 1765151, 1762279, 1759406,
   1756534, 1753587, 1750565, 1747544, 1744522, 1743011, 1741501, 1739990, 1738479, 1735458,
   1732436, 1729414, 1726321, 1723155, 1719990, 1716824, 1715241, 1713659, 1712076, 1710493,
   1707328, 1704162, 1700996, 1697762, 1694458, 1691154, 1687850, 1686198, 1684546, 1682894,
   1681242, 1677938, 1674634, 1671330, 1667960, 1664524, 1661087, 1657651, 1655932, 1654214,
   1652496, 1650778, 1647341, 1643905, 1640468, 1636968, 1633405, 1629842, 1626279, 1624497,
   1622716, 1621825, 1620934, 1619153, 1615590, 1612027, 1608464, 1604841, 1601157, 1597474,
   1593790, 1591948, 1590107, 1589186, 1588265, 1586424, 1582740, 1579057, 1575374, 1571633,
   1567836, 1564039, 1560242, 1558343, 1557393, 1556444, 1555969, 1555494, 1554545, 1552647,
   1548850, 1545053, 1541256, 1537405, 1533500, 1529596, 1525691, 1523739, 1521787, 1519835,
   1517883, 1513978, 1510074, 1506169, 1502215, 1498210, 1494205, 1490201, 1488198, 1486196,
   1485194, 1484193, 1482191, 1478186, 1474182, 1470177, 1466126, 1462027, 1457929, 1453831,
   1451782, 1449733, 1447684, 1445635, 1441537, 1437439, 1433341, 1429200, 1425016, 1420832,
   1416647, 1414555, 1413509, 1412463, 1410371, 1408279, 1404095, 1399911, 1395727, 1391503,
   1387240, 1382977, 1378714, 1376582, 1374451, 1373385, 1372319, 1370188, 1365925, 1361662,
   1357399, 1353101, 1348766, 1344432, 1340098, 1337931, 1336847, 1335764, 1334680, 1333596,
   1331429, 1327095, 1322761, 1318427, 1314061, 1309663, 1305265, 1300867, 1298668, 1296469,
   1294270, 1292071, 1287673, 1283275, 1278877, 1274451, 1269997, 1265543, 1261089, 1258862,
   1256635, 1254408, 1252181, 1247727, 1243273, 1238819, 1234341, 1229839, 1225337, 1220835,
   1218584, 1216333, 1214082, 1211831, 1207329, 1202827, 1198324, 1193802, 1189260, 1184717,
   1180175, 1177904, 1175633, 1174497, 1173361, 1171090, 1166548, 1162005, 1157463, 1152905,
   1148330, 1143755, 1139180, 1136893, 1134606, 1133462, 1132318, 1130031, 1125456, 1120882,
   1116307, 1111720, 1107121, 1102522, 1097923, 1095623, 1093324, 1092174, 1091024, 1088725,
   1084126, 1079527, 1074928, 1070321, 1065706, 1061091, 1056476, 1054168, 1051861, 1049553,
   1047245, 1042630, 1038015, 1033400, 1028781, 1024157, 1019534, 1014911, 1012599, 1010288,
   1007976, 1005664, 1001041, 996418, 991794, 987171, 982548, 977924, 973301, 970989, 968678,
   967522, 966366, 964055, 959431, 954808, 950185, 945565, 940950, 936335, 931720, 929412, 927105,
   924797, 922489, 917874, 913259, 908644, 904037, 899438, 894839, 890240, 887940, 885641, 884491,
   883341, 881042, 876443, 871844, 867245, 862658, 858083, 853509, 848934, 846646, 844359, 843215,
   842071, 839784, 835210, 830635, 826060, 821502, 816959, 812417, 807874, 805603, 803332, 801061,
   798790, 794247, 789705, 785162, 780640, 776138, 771636, 767133, 764882, 762631, 760380, 758129,
   753627, 749125, 744623, 740145, 735691, 731237, 726783, 724556, 723442, 722329, 720102, 717875,
   713421, 708967, 704513, 700087, 695688, 691290, 686892, 684693, 682494, 681394, 680295, 678096,
   673698, 669300, 664902, 660536, 656202, 651867, 647533, 645366, 643199, 642115, 641031, 638864,
   634530, 630196, 625861, 621563, 617299, 613036, 608773, 606641, 604510, 603444, 602378, 600247,
   595984, 591721, 587458, 583234, 579050, 574866, 570681, 568589, 566497, 564405, 562313, 558129,
   553944, 549760, 545619, 541521, 537422, 533324, 531275, 529226, 527177, 525128, 521030, 516931,
   512833, 508782, 504777, 500772, 496767, 494764, 492762, 491760, 490759, 488757, 484752, 480747,
   476742, 472788, 468883, 464978, 461074, 459121, 457169, 455217, 453265, 449360, 445455, 441551,
   437700, 433902, 430105, 426307, 424408, 422510, 421560, 420611, 418713, 414915, 411118, 407320,
   403580, 399896, 396212, 392529, 390687, 388845, 387924, 387003, 385162, 381478, 377794, 374111,
   370487, 366924, 363360, 359797, 358015, 356234, 354452, 352670, 349107, 345544, 341980, 338480,
   335043, 331606, 328170, 326451, 324733, 323873, 323014, 322584, 322155, 321296, 317859, 314422,
   310985, 307615, 304310, 301006, 297702, 296049, 294397, 292745, 291093, 287789, 284484, 281180,
   277945, 274779, 271613, 268447, 266864, 265281, 264489, 263698, 263302, 262906, 262115, 258949,
   255783, 252617, 249523, 246500, 243478, 240456, 238945, 237434, 235923, 234412, 231389, 228367,
   225345, 222397, 219524, 216651, 213778, 212341, 210905, 210186, 209468, 208032, 206595, 205159,
   202286, 199413, 196617, 193898, 191179, 188460, 187100, 185741, 185061, 184381, 183701, 183022,
   180303, 177584, 174865, 172226, 169666, 167105, 164545, 163265, 161985, 160705, 159425, 156865,
   154305, 151745, 149266, 146869, 144472, 142076, 140877, 139679, 139079, 138480, 137282, 136083,
   134885, 132488, 130091, 127778, 125548, 123319, 121089, 119974, 118860, 117745, 117187, 116630,
   114401, 112171, 109942, 107798, 105739, 103681, 101622, 100593, 99564, 98534, 97505, 96476,
   95447, 93388, 91330, 89359, 87474, 85590, 83706, 82764, 81822, 80880, 79938, 79467, 78996,
   78054, 76170, 74286, 72490, 70783, 69077, 67370, 66516, 65663, 64809, 63956, 63529, 63102,
   62249, 60542, 58835, 57218, 55690, 54163, 52635, 51871, 51489, 51107, 50343, 49580, 48816,
   48052, 46525, 44997, 43559, 42212, 40864, 40190, 39516, 38842, 38505, 38169, 37832, 37495,
   36821, 36147, 35473, 34126, 32778, 31519, 30349, 29179, 28594, 28009, 27716, 27423, 27130,
   26838, 26545, 26253, 25668, 25083, 24498, 23913, 23328, 22158, 21069, 20061, 19053, 18549,
   18045, 17793, 17541, 17289, 17163, 17037, 16911, 16785, 16659, 16533, 16281, 16030, 15526,
   15022, 14518, 14014, 13006, 11863, 11224, 10585, 10265, 9946, 9626, 9466, 9307, 9147, 8987,
   8907, 8827, 8747, 8668, 8588, 8508, 8428, 8348, 8268, 8188, 8108, 8029, 7949, 7869, 7789, 7709,
   7629, 7549, 7390, 7230, 7070, 6751, 6431, 6112, 5473, 4195, 2917, 1639, 1000, 0]

def pts39 : List ℕ :=
  [2258653, 2257653, 2256556, 2256362, 2256169, 2256072, 2256023, 2255975, 2255878, 2255781,
   2255588, 2255394, 2255200, 2255007, 2254716, 2254329, 2253942, 2253748, 2253555, 2253458,
   2253409, 2253361, 2253336, 2253312, 2253264, 2253168, 2252781, 2252394, 2252007, 2251620,
   2251137, 2250557, 2249978, 2249398, 2249108, 2248818, 2248528, 2248238, 2247659, 2247079,
   2246499, 2245823, 2245052, 2244280, 2243509, 2243123, 2242737, 2241965, 2241194, 2240422,
   2239651, 2238784, 2237821, 2236859, 2235897, 2235415, 2234934, 2234693, 2234453, 2233972,
   2233010, 2232048, 2231085, 2230028, 2228877, 2227726, 2226574, 2225998, 2225423, 2224847,
   2224271, 2223120, 2221968, 2220817, 2219572, 2218233, 2216894, 2215555, 2214885, 2214216,
   2213881, 2213546, 2212877, 2211538, 2210200, 2208861, 2207429, 2205905, 2204381, 2202856,
   2202094, 2201332, 2200570, 2199808, 2198284, 2196760, 2195235, 2193620, 2191912, 2190205,
   2188498, 2187644, 2186791, 2186364, 2185937, 2185084, 2183376, 2181669, 2179962, 2178165,
   2176277, 2174389, 2172502, 2171558, 2170614, 2169670, 2168727, 2166839, 2164952, 2163064,
   2161088, 2159023, 2156958, 2154893, 2153860, 2152828, 2152311, 2151795, 2150763, 2148697,
   2146632, 2144567, 2142415, 2140176, 2137937, 2135697, 2134577, 2133458, 2132898, 2132338,
   2131219, 2128980, 2126740, 2124501, 2122176, 2119766, 2117356, 2114946, 2113741, 2112536,
   2111331, 2110126, 2107716, 2105305, 2102895, 2100402, 2097824, 2095247, 2092670, 2091381,
   2090093, 2089448, 2088804, 2087516, 2084938, 2082361, 2079784, 2077125, 2074385, 2071645,
   2068904, 2067534, 2066164, 2065479, 2064794, 2063424, 2060683, 2057943, 2055203, 2052383,
   2049484, 2046584, 2043685, 2042235, 2040786, 2040061, 2039336, 2037887, 2034987, 2032088,
   2029189, 2026212, 2023159, 2020105, 2017051, 2015524, 2013998, 2012471, 2010944, 2007890,
   2004837, 2001783, 1998655, 1995451, 1992248, 1989044, 1987442, 1985841, 1985040, 1984239,
   1982638, 1979434, 1976231, 1973028, 1969752, 1966404, 1963055, 1959707, 1958033, 1956359,
   1954685, 1953011, 1949663, 1946315, 1942966, 1939548, 1936061, 1932573, 1929085, 1927341,
   1925597, 1923853, 1922109, 1918622, 1915134, 1911646, 1908091, 1904469, 1900847, 1897225,
   1895414, 1893603, 1892697, 1891792, 1889981, 1886359, 1882737, 1879115, 1875429, 1871678,
   1867927, 1864177, 1862301, 1860426, 1859488, 1858550, 1856675, 1852925, 1849174, 1845423,
   1841611, 1837737, 1833864, 1829990, 1828053, 1826117, 1824180, 1822243, 1818370, 1814496,
   1810623, 1806691, 1802700, 1798710, 1794719, 1792724, 1790729, 1789731, 1788733, 1786738,
   1782748, 1778757, 1774767, 1770721, 1766620, 1762519, 1758417, 1756366, 1754316, 1753290,
   1752265, 1750215, 1746114, 1742013, 1737911, 1733758, 1729552, 1725347, 1721141, 1719038,
   1716936, 1714833, 1712730, 1708524, 1704319, 1700113, 1695858, 1691555, 1687251, 1682948,
   1680796, 1678644, 1676492, 1674341, 1670037, 1665733, 1661430, 1657081, 1652686, 1648291,
   1643896, 1641698, 1639501, 1638402, 1637303, 1635106, 1630711, 1626317, 1621922, 1617485,
   1613005, 1608526, 1604046, 1601806, 1599567, 1598447, 1597327, 1595088, 1590608, 1586129,
   1581649, 1577131, 1572574, 1568017, 1563460, 1561181, 1558903, 1557763, 1556624, 1554346,
   1549789, 1545232, 1540675, 1536083, 1531455, 1526827, 1522200, 1519886, 1517572, 1515258,
   1512945, 1508317, 1503689, 1499062, 1494402, 1489711, 1485020, 1480329, 1477983, 1475638,
   1474465, 1473292, 1470947, 1466256, 1461565, 1456874, 1452155, 1447407, 1442660, 1437913,
   1435539, 1433165, 1430791, 1428418, 1423671, 1418924, 1414176, 1409405, 1404608, 1399812,
   1395016, 1392618, 1390220, 1389021, 1387822, 1385424, 1380627, 1375831, 1371035, 1366218,
   1361380, 1356543, 1351705, 1349286, 1348076, 1346867, 1344448, 1342029, 1337192, 1332354,
   1327516, 1322661, 1317790, 1312918, 1308046, 1305610, 1303174, 1300738, 1298303, 1293431,
   1288559, 1283687, 1278802, 1273904, 1269006, 1264107, 1261658, 1259209, 1256760, 1254311,
   1249413, 1244514, 1239616, 1234708, 1229791, 1224874, 1219956, 1217497, 1215039, 1213809,
   1212580, 1210122, 1205204, 1200287, 1195370, 1190447, 1185518, 1180589, 1175661, 1173196,
   1170732, 1169499, 1168267, 1165803, 1160875, 1155946, 1151017, 1146087, 1141154, 1136222,
   1131289, 1128823, 1126357, 1125123, 1123890, 1121424, 1116492, 1111559, 1106627, 1101696,
   1096767, 1091839, 1086910, 1084445, 1081981, 1080748, 1079516, 1077052, 1072124, 1067195,
   1062266, 1057343, 1052426, 1047509, 1042591, 1040132, 1037674, 1036444, 1035215, 1032757,
   1027840, 1022922, 1018005, 1013097, 1008199, 1003300, 998402, 995953, 993504, 992279, 991054,
   988605, 983707, 978809, 973910, 969025, 964154, 959282, 954410, 951974, 949538, 947102, 944666,
   939795, 934923, 930051, 925196, 920359, 915521, 910683, 908264, 905845, 903426, 901008, 896170,
   891332, 886494, 881677, 876881, 872085, 867289, 864890, 862492, 860094, 857696, 852900, 848104,
   843307, 838536, 833788, 829041, 824294, 821920, 819546, 818359, 817172, 814799, 810051, 805304,
   800557, 795838, 791146, 786455, 781764, 779418, 777073, 775900, 774727, 772382, 767691, 763000,
   758308, 753649, 749021, 744394, 739766, 737452, 735138, 733981, 732824, 730511, 725883, 721255,
   716628, 712035, 707478, 702921, 698364, 696085, 693807, 692667, 691528, 689250, 684693, 680135,
   675578, 671060, 666581, 662101, 657622, 655382, 653142, 652022, 650902, 648663, 644183, 639704,
   635224, 630787, 626392, 621997, 617602, 615404, 613207, 612108, 611009, 608812, 604417, 600022,
   595627, 591278, 586974, 582670, 578367, 576215, 574063, 571911, 569759, 565455, 561152, 556848,
   552593, 548388, 544182, 539976, 537873, 535770, 533667, 532615, 531564, 527359, 523153, 518947,
   514794, 510692, 506591, 502489, 500438, 498388, 497362, 496337, 494287, 490185, 486084, 481983,
   477936, 473946, 469955, 465965, 463969, 461974, 460976, 459978, 457983, 453993, 450002, 446011,
   442079, 438205, 434332, 430458, 428521, 426584, 424647, 422710, 418836, 414963, 411089, 407276,
   403526, 399775, 396024, 394148, 392273, 391335, 390397, 388522, 384771, 381020, 377269, 373582,
   369960, 366338, 362715, 360904, 359093, 358187, 357282, 355471, 351848, 348226, 344604, 341048,
   337560, 334072, 330584, 328840, 327096, 326224, 325352, 324480, 323608, 320120, 316631, 313143,
   309725, 306376, 303028, 299679, 298005, 296331, 295493, 294656, 293819, 292982, 289633, 286285,
   282936, 279660, 276456, 273252, 270048, 268446, 266845, 266044, 265243, 264442, 263641, 260437,
   257233, 254029, 250900, 247846, 244791, 241737, 240210, 238683, 237156, 236392, 235629, 232574,
   229520, 226466, 223489, 220589, 217689, 214789, 213339, 211889, 211164, 210439, 209714, 208989,
   206089, 203189, 200289, 197469, 194727, 191986, 189245, 187874, 186504, 185818, 185133, 183763,
   182392, 181021, 178280, 175539, 172879, 170301, 167722, 165144, 163855, 162566, 161921, 161277,
   159988, 158698, 157409, 154831, 152253, 149758, 147346, 144935, 142523, 141317, 140112, 138906,
   138303, 137700, 135289, 132877, 130466, 128140, 125898, 123657, 121416, 120295, 119175, 118614,
   118054, 117494, 116934, 114693, 112452, 110211, 108057, 105989, 103922, 101855, 100821, 99787,
   98753, 97720, 96686, 95652, 93585, 91518, 89538, 87648, 85757, 83866, 82920, 81975, 81029,
   80084, 79611, 79139, 78194, 76303, 74412, 72611, 70899, 69187, 67475, 66619, 65764, 64908,
   64052, 63624, 63196, 62340, 60628, 58916, 57295, 55764, 54233, 52702, 51936, 51553, 51171,
   50405, 49640, 48874, 48108, 46577, 45046, 43606, 42256, 40906, 40231, 39556, 38881, 38543,
   38206, 37868, 37531, 36856, 36518, 36181, 35506, 34156, 32806, 31545, 30374, 29202, 28616,
   28030, 27737, 27444, 27151, 26859, 26566, 26273, 25687, 25394, 25101, 24808, 24515, 23344,
   22172, 21082, 20073, 19065, 18560, 18056, 17803, 17551, 17299, 17173, 17047, 16921, 16795,
   16669, 16543, 16291, 16039, 15534, 15030, 14777, 14525, 14021, 13013, 11869, 11229, 10590,
   10270, 9951, 9631, 9471, 9312, 9152, 8992, 8912, 8832, 8752, 8672, 8592, 8512, 8432, 8352,
   8272, 8192, 8112, 8033, 7953, 7873, 7793, 7713, 7633, 7553, 7393, 7233, 7073, 6754, 6434, 6115,
   5476, 4197, 2918, 1639, 1000, 0]

def pts40 : List ℕ :=
  [2551242, 2550242, 2548370, 2548103, 2547571, 2547305, 2546918, 2546531, 2546337, 2546143,
   2545949, 2545756, 2545369, 2544982, 2544595, 2544207, 2543724, 2543143, 2542563, 2541983,
   2541693, 2541548, 2541403, 2540823, 2540243, 2539662, 2539082, 2538406, 2537634, 2536861,
   2536089, 2535703, 2535317, 2534545, 2533772, 2533000, 2532228, 2531360, 2530396, 2529433,
   2528469, 2527987, 2527506, 2527265, 2527024, 2526543, 2525579, 2524616, 2523652, 2522594,
   2521441, 2520288, 2519134, 2518557, 2517981, 2517692, 2517404, 2516828, 2515675, 2514522,
   2513368, 2512121, 2510780, 2509438, 2508097, 2507426, 2506756, 2506085, 2505414, 2504073,
   2502731, 2501390, 2499955, 2498428, 2496900, 2495372, 2494608, 2493844, 2493080, 2492316,
   2490789, 2489261, 2487733, 2486113, 2484401, 2482689, 2480977, 2480121, 2479693, 2479265,
   2478409, 2477553, 2475841, 2474129, 2472417, 2470613, 2468719, 2466825, 2464931, 2463984,
   2463037, 2462090, 2461143, 2459249, 2457355, 2455461, 2453478, 2451404, 2449331, 2447257,
   2446220, 2445184, 2444665, 2444147, 2443111, 2441037, 2438964, 2436890, 2434729, 2432479,
   2430229, 2427979, 2426854, 2425729, 2424604, 2423479, 2421229, 2418979, 2416729, 2414393,
   2411969, 2409546, 2407123, 2405911, 2404699, 2403487, 2402276, 2399853, 2397429, 2395006,
   2392497, 2389904, 2387310, 2384717, 2383420, 2382123, 2380826, 2379530, 2376936, 2374343,
   2371749, 2369072, 2366312, 2363552, 2360792, 2359412, 2358032, 2356652, 2355272, 2352512,
   2349751, 2346991, 2344150, 2341227, 2338304, 2335381, 2333919, 2332458, 2331727, 2330996,
   2329535, 2326612, 2323689, 2320766, 2317764, 2314682, 2311600, 2308518, 2306977, 2305436,
   2304665, 2303895, 2302355, 2299273, 2296191, 2293109, 2289950, 2286713, 2283477, 2280241,
   2278622, 2277004, 2275386, 2273768, 2270531, 2267295, 2264058, 2260747, 2257360, 2253973,
   2250587, 2248893, 2247200, 2246353, 2245506, 2243813, 2240427, 2237040, 2233654, 2230194,
   2226662, 2223130, 2219597, 2217831, 2216065, 2214299, 2212533, 2209001, 2205468, 2201936,
   2198333, 2194660, 2190987, 2187314, 2185477, 2183641, 2182722, 2181804, 2179968, 2176295,
   2172622, 2168949, 2165208, 2161400, 2157591, 2153782, 2151877, 2149973, 2148069, 2146165,
   2142356, 2138547, 2134738, 2130864, 2126925, 2122986, 2119046, 2117076, 2115107, 2114122,
   2113137, 2111168, 2107228, 2103289, 2099350, 2095348, 2091284, 2087219, 2083155, 2081122,
   2079090, 2077058, 2075026, 2070961, 2066897, 2062832, 2058708, 2054524, 2050340, 2046156,
   2044064, 2043018, 2041972, 2039880, 2037788, 2033603, 2029419, 2025235, 2020994, 2016696,
   2012398, 2008100, 2005951, 2004876, 2003802, 2001653, 1999504, 1995206, 1990908, 1986610,
   1982258, 1977852, 1973446, 1969040, 1966837, 1964634, 1962431, 1960228, 1955822, 1951416,
   1947010, 1942553, 1938045, 1933537, 1929029, 1926775, 1925648, 1924521, 1922267, 1920013,
   1915505, 1910997, 1906489, 1901933, 1897329, 1892726, 1888122, 1885820, 1883518, 1882367,
   1881216, 1878914, 1874310, 1869706, 1865102, 1860454, 1855760, 1851067, 1846373, 1844026,
   1841680, 1840506, 1839333, 1836987, 1832293, 1827600, 1822906, 1818171, 1813395, 1808618,
   1803842, 1801453, 1799065, 1797870, 1796676, 1794288, 1789512, 1784735, 1779959, 1775144,
   1770291, 1765437, 1760584, 1758157, 1755731, 1754517, 1753304, 1750878, 1746024, 1741171,
   1736318, 1731430, 1726507, 1721583, 1716660, 1714198, 1711737, 1710506, 1709275, 1706814,
   1701891, 1696967, 1692044, 1687089, 1682103, 1677116, 1672130, 1669636, 1667143, 1664650,
   1662157, 1657170, 1652184, 1647197, 1642183, 1637140, 1632097, 1627054, 1624532, 1622011,
   1620750, 1619489, 1616968, 1611925, 1606882, 1601839, 1596771, 1591679, 1586586, 1581494,
   1578947, 1576401, 1573855, 1571309, 1566216, 1561124, 1556031, 1550917, 1545782, 1540647,
   1535512, 1532944, 1530377, 1527809, 1525241, 1520106, 1514971, 1509836, 1504683, 1499512,
   1494342, 1489171, 1486585, 1484000, 1482707, 1481414, 1478829, 1473659, 1468488, 1463317,
   1458132, 1452933, 1447733, 1442534, 1439934, 1437335, 1436035, 1434735, 1432135, 1426936,
   1421737, 1416538, 1411328, 1406107, 1400886, 1395665, 1393055, 1391750, 1390445, 1389792,
   1389139, 1387834, 1385224, 1380003, 1374782, 1369562, 1364334, 1359099, 1353864, 1348628,
   1346010, 1343393, 1342084, 1340775, 1338158, 1332923, 1327688, 1322453, 1317215, 1311972,
   1306730, 1301488, 1298867, 1296246, 1294935, 1293624, 1291003, 1285761, 1280519, 1275277,
   1270035, 1264792, 1259550, 1254308, 1251687, 1249066, 1247755, 1246444, 1243823, 1238581,
   1233339, 1228097, 1222858, 1217623, 1212388, 1207153, 1204535, 1201918, 1200609, 1199300,
   1196683, 1191448, 1186213, 1180978, 1175750, 1170529, 1165308, 1160087, 1157477, 1154867,
   1153561, 1152256, 1149646, 1144425, 1139204, 1133984, 1128774, 1123574, 1118375, 1113176,
   1110576, 1107976, 1106676, 1105376, 1102777, 1097578, 1092378, 1087179, 1081994, 1076823,
   1071652, 1066482, 1063896, 1061311, 1060018, 1058725, 1056140, 1050969, 1045798, 1040628,
   1035475, 1030339, 1025204, 1020069, 1017501, 1014934, 1013650, 1012366, 1009799, 1004664,
   999528, 994393, 989279, 984187, 979094, 974002, 971455, 968909, 967635, 966362, 963816, 958724,
   953631, 948539, 943471, 938428, 933385, 928342, 925820, 923299, 922038, 920777, 918256, 913213,
   908170, 903127, 898112, 893126, 888139, 883153, 880659, 878166, 875673, 873180, 868193, 863206,
   858220, 853265, 848342, 843418, 838495, 836033, 833572, 832341, 831110, 828649, 823725, 818802,
   813879, 808991, 804137, 799284, 794431, 792004, 789577, 787150, 784724, 779871, 775018, 770164,
   765349, 760573, 755796, 751019, 748631, 746243, 745048, 743854, 741466, 736689, 731913, 727136,
   722401, 717707, 713014, 708320, 705973, 703627, 701280, 698933, 694240, 689546, 684853, 680204,
   675600, 670996, 666392, 664090, 661788, 659486, 657184, 652580, 647976, 643372, 638816, 634308,
   629800, 625292, 623038, 620784, 618530, 616276, 611767, 607259, 602751, 598294, 593888, 589482,
   585076, 582873, 580670, 579568, 578466, 576263, 571857, 567451, 563045, 558693, 554395, 550097,
   545798, 543649, 541500, 539351, 537202, 532904, 528606, 524308, 520067, 515882, 511698, 507514,
   505422, 503330, 502283, 501237, 499145, 494961, 490777, 486593, 482468, 478403, 474339, 470274,
   468241, 466209, 464177, 463161, 462145, 458080, 454015, 449951, 445949, 442009, 438070, 434130,
   432160, 430191, 429206, 428221, 427236, 426251, 422312, 418372, 414432, 410558, 406749, 402940,
   399131, 397226, 395322, 394369, 393417, 391513, 387704, 383895, 380086, 376345, 372671, 368998,
   365325, 363488, 361652, 359815, 357978, 354305, 350632, 346958, 343355, 339823, 336290, 332757,
   330991, 329225, 328341, 327458, 327016, 326575, 325692, 322160, 318627, 315094, 311635, 308248,
   304860, 301473, 299779, 298086, 297239, 296392, 295545, 294699, 291312, 287925, 284538, 281226,
   277989, 274752, 271515, 269896, 268278, 267468, 266659, 265850, 265041, 261804, 258567, 255330,
   252171, 249088, 246006, 242924, 241382, 239841, 238300, 237529, 236759, 233676, 230594, 227512,
   224508, 221585, 218661, 215737, 214275, 212814, 212083, 211352, 210621, 209890, 206966, 204043,
   201119, 198277, 195516, 192755, 189994, 188613, 187233, 186542, 185852, 185162, 184472, 181711,
   178950, 176189, 173511, 170916, 168321, 165727, 164429, 163132, 161835, 160538, 159240, 157943,
   155348, 152754, 150244, 147819, 145395, 142970, 141757, 140545, 139938, 139332, 138726, 138120,
   135696, 133271, 130846, 128508, 126256, 124004, 121753, 120627, 119501, 118375, 117249, 114998,
   112746, 110494, 108330, 106255, 104179, 102103, 101065, 100027, 98989, 97952, 96914, 95876,
   93800, 91724, 89738, 87841, 85943, 84046, 83097, 82149, 81200, 80252, 79777, 79303, 78355,
   76457, 74560, 72753, 71036, 69320, 67603, 66744, 65886, 65028, 64599, 64170, 63955, 63740,
   63311, 62453, 60737, 59020, 57394, 55860, 54325, 52790, 52023, 51639, 51256, 50872, 50488,
   50104, 49721, 49337, 48953, 48186, 46652, 45117, 43674, 42321, 40969, 40292, 39616, 38940,
   38602, 38264, 37925, 37587, 36911, 36235, 35559, 34206, 32854, 31591, 30418, 29244, 28657,
   28071, 27777, 27484, 27191, 26898, 26604, 26311, 25724, 25137, 24551, 23378, 22204, 21113,
   20103, 19094, 18589, 18084, 17831, 17579, 17326, 17200, 17074, 16947, 16821, 16695, 16569,
   16317, 16065, 15560, 15055, 14550, 14046, 13036, 11890, 11249, 10609, 10288, 9968, 9648, 9488,
   9328, 9167, 9007, 8927, 8847, 8767, 8687, 8607, 8527, 8447, 8367, 8287, 8207, 8127, 8047, 7966,
   7886, 7806, 7726, 7646, 7566, 7406, 7246, 7086, 6926, 6766, 6445, 6125, 5484, 4203, 2922, 1641,
   1000, 0]

def pts41 : List ℕ :=
  [2860047, 2859047, 2857175, 2856908, 2856376, 2856110, 2855723, 2855336, 2855142, 2854948,
   2854754, 2854561, 2854174, 2853787, 2853400, 2853012, 2852529, 2851949, 2851368, 2850788,
   2850498, 2850208, 2849628, 2849048, 2848467, 2847887, 2847211, 2846438, 2845666, 2844893,
   2844507, 2844121, 2843734, 2843348, 2842576, 2841803, 2841031, 2840163, 2839199, 2838235,
   2837271, 2836789, 2836548, 2836307, 2835825, 2835343, 2834379, 2833416, 2832452, 2831393,
   2830239, 2829085, 2827931, 2827354, 2826777, 2826488, 2826200, 2825623, 2824468, 2823314,
   2822160, 2820912, 2819569, 2818226, 2816883, 2816212, 2815541, 2815205, 2814869, 2814198,
   2812855, 2811512, 2810169, 2808733, 2807203, 2805673, 2804143, 2803378, 2802995, 2802613,
   2801848, 2801083, 2799553, 2798023, 2796493, 2794871, 2793155, 2791440, 2789725, 2788867,
   2788010, 2787152, 2786294, 2784579, 2782864, 2781149, 2779342, 2777443, 2775545, 2773646,
   2772697, 2771748, 2770799, 2769850, 2767951, 2766053, 2764154, 2762165, 2760086, 2758007,
   2755927, 2754887, 2753848, 2753328, 2752808, 2751769, 2749689, 2747610, 2745531, 2743362,
   2741105, 2738847, 2736589, 2735460, 2734332, 2733203, 2732074, 2729816, 2727559, 2725301,
   2722956, 2720522, 2718089, 2715656, 2714439, 2713223, 2712614, 2712006, 2710789, 2708356,
   2705923, 2703490, 2700970, 2698364, 2695758, 2693152, 2691849, 2690547, 2689244, 2687941,
   2685335, 2682729, 2680123, 2677432, 2674657, 2671882, 2669106, 2667718, 2666331, 2665637,
   2664943, 2663556, 2660780, 2658005, 2655230, 2652371, 2649430, 2646489, 2643547, 2642076,
   2640606, 2639135, 2637664, 2634723, 2631782, 2628840, 2625818, 2622714, 2619610, 2616506,
   2614954, 2613402, 2611850, 2610298, 2607194, 2604090, 2600986, 2597803, 2594541, 2591278,
   2588015, 2586384, 2584753, 2583937, 2583121, 2581490, 2578228, 2574965, 2571702, 2568362,
   2564945, 2561528, 2558110, 2556401, 2554693, 2553838, 2552984, 2551276, 2547858, 2544441,
   2541024, 2537531, 2533963, 2530395, 2526827, 2525043, 2523260, 2521476, 2519692, 2516124,
   2512556, 2508988, 2505347, 2501633, 2497919, 2494205, 2492348, 2490491, 2489562, 2488633,
   2486776, 2483062, 2479348, 2475634, 2471849, 2467993, 2464137, 2460282, 2458354, 2456426,
   2454498, 2452570, 2448714, 2444858, 2441003, 2437078, 2433085, 2429093, 2425100, 2423103,
   2421107, 2420108, 2419110, 2417114, 2413121, 2409129, 2405136, 2401077, 2396952, 2392827,
   2388702, 2386639, 2384577, 2383545, 2382514, 2380452, 2376327, 2372202, 2368077, 2363889,
   2359637, 2355385, 2351133, 2349007, 2347944, 2346881, 2346349, 2345817, 2344754, 2342628,
   2338376, 2334124, 2329872, 2325559, 2321185, 2316811, 2312437, 2310250, 2308063, 2305876,
   2303689, 2299315, 2294941, 2290567, 2286135, 2281645, 2277154, 2272663, 2270418, 2269295,
   2268173, 2267050, 2265927, 2263682, 2259192, 2254701, 2250210, 2245664, 2241063, 2236461,
   2231859, 2229558, 2227257, 2224956, 2222656, 2218054, 2213452, 2208851, 2204196, 2199489,
   2194782, 2190074, 2187720, 2185367, 2184190, 2183013, 2180660, 2175953, 2171246, 2166538,
   2161781, 2156974, 2152167, 2147360, 2144956, 2142553, 2141351, 2140149, 2137746, 2132939,
   2128132, 2123325, 2118471, 2113570, 2108669, 2103768, 2101317, 2098867, 2097641, 2096416,
   2093966, 2089065, 2084164, 2079263, 2074319, 2069330, 2064341, 2059352, 2056857, 2054363,
   2053115, 2051868, 2049374, 2044385, 2039396, 2034407, 2029377, 2024307, 2019236, 2014165,
   2011629, 2009094, 2007826, 2006558, 2004023, 1998953, 1993882, 1988811, 1983702, 1978556,
   1973409, 1968263, 1965689, 1963116, 1960543, 1957970, 1952824, 1947677, 1942531, 1937349,
   1932133, 1926917, 1921702, 1919094, 1916486, 1915182, 1913878, 1911270, 1906054, 1900838,
   1895622, 1890374, 1885095, 1879816, 1874537, 1871897, 1869258, 1867938, 1866618, 1863979,
   1858700, 1853421, 1848142, 1842835, 1837499, 1832164, 1826828, 1824160, 1821493, 1818825,
   1816157, 1810821, 1805486, 1800150, 1794789, 1789403, 1784018, 1778632, 1775939, 1773246,
   1770553, 1767860, 1762474, 1757089, 1751703, 1746295, 1740866, 1735437, 1730007, 1727292,
   1724578, 1721863, 1719148, 1713719, 1708290, 1702860, 1697412, 1691946, 1686480, 1681013,
   1678280, 1675547, 1672814, 1670081, 1664614, 1659148, 1653682, 1648200, 1642703, 1637207,
   1631710, 1628961, 1626213, 1623465, 1620717, 1615220, 1609723, 1604227, 1598718, 1593198,
   1587678, 1582158, 1579397, 1576637, 1573877, 1571117, 1565597, 1560076, 1554556, 1549027,
   1543490, 1537953, 1532416, 1529647, 1526879, 1525494, 1524110, 1521342, 1515805, 1510267,
   1504730, 1499188, 1493641, 1488093, 1482546, 1479772, 1476999, 1475612, 1474225, 1471451,
   1465904, 1460357, 1454810, 1449261, 1443710, 1438159, 1432609, 1429833, 1427058, 1425670,
   1424282, 1421507, 1415956, 1410406, 1404855, 1399306, 1393759, 1388211, 1382664, 1379890,
   1377117, 1375730, 1374343, 1371570, 1366022, 1360475, 1354928, 1349385, 1343848, 1338311,
   1332774, 1330005, 1327237, 1325852, 1324468, 1321700, 1316162, 1310625, 1305088, 1299559,
   1294039, 1288519, 1282998, 1280238, 1277478, 1274718, 1271958, 1266438, 1260917, 1255397,
   1249889, 1244392, 1238895, 1233399, 1230650, 1227902, 1226527, 1225153, 1222405, 1216909,
   1211412, 1205915, 1200434, 1194967, 1189501, 1184035, 1181301, 1178568, 1175835, 1173102,
   1167635, 1162169, 1156703, 1151255, 1145825, 1140396, 1134967, 1132252, 1129537, 1128179,
   1126822, 1124108, 1118678, 1113249, 1107820, 1102412, 1097026, 1091640, 1086254, 1083561,
   1080869, 1078176, 1075483, 1070097, 1064711, 1059325, 1053965, 1048629, 1043293, 1037958,
   1035290, 1032622, 1031288, 1029954, 1027286, 1021950, 1016615, 1011279, 1005972, 1000693,
   995414, 990135, 987495, 984856, 982216, 979576, 974297, 969018, 963739, 958492, 953276, 948060,
   942844, 940236, 937628, 936324, 935020, 932412, 927196, 921980, 916764, 911583, 906436, 901290,
   896143, 893570, 890997, 889710, 888423, 885850, 880703, 875557, 870410, 865302, 860231, 855160,
   850089, 847553, 845018, 843750, 842482, 839947, 834877, 829806, 824735, 819705, 814716, 809727,
   804738, 802243, 799749, 798501, 797254, 794760, 789771, 784782, 779793, 774848, 769947, 765046,
   760145, 757694, 755244, 754018, 752793, 750343, 745442, 740541, 735640, 730786, 725979, 721172,
   716364, 713960, 711557, 710355, 709153, 706750, 701943, 697136, 692329, 687572, 682864, 678157,
   673450, 671096, 668742, 666388, 664035, 659328, 654620, 649913, 645258, 640657, 636055, 631453,
   629152, 626851, 624550, 622249, 617647, 613046, 608444, 603897, 599407, 594916, 590425, 588180,
   585935, 584812, 583689, 581444, 576953, 572462, 567972, 563539, 559165, 554791, 550417, 548230,
   546043, 543856, 541669, 537294, 532920, 528546, 524233, 519981, 515728, 511476, 509350, 507224,
   505098, 504035, 502972, 498720, 494467, 490215, 486026, 481901, 477776, 473651, 471588, 469526,
   468494, 467463, 465401, 461276, 457150, 453025, 448966, 444973, 440980, 436987, 434990, 432994,
   431995, 430997, 429001, 425008, 421015, 417022, 413097, 409241, 405385, 401529, 399601, 397673,
   395745, 393817, 389961, 386105, 382249, 378463, 374749, 371034, 367320, 365463, 363606, 362677,
   362212, 361748, 360819, 359891, 356177, 352462, 348748, 345107, 341538, 337970, 334402, 332618,
   330834, 329941, 329049, 328157, 327265, 323697, 320129, 316561, 313068, 309650, 306232, 302814,
   301105, 299397, 297688, 295979, 292561, 289143, 285726, 282385, 279122, 275859, 272596, 270964,
   269333, 268517, 267701, 267293, 266885, 266070, 262807, 259543, 256280, 253097, 249992, 246888,
   243783, 242231, 240679, 239902, 239126, 238738, 238350, 237574, 234470, 231365, 228261, 225237,
   222295, 219353, 216411, 214940, 213469, 211998, 210527, 207585, 204643, 201700, 198841, 196065,
   193289, 190513, 189124, 187736, 186348, 184960, 183572, 182184, 179408, 176632, 173940, 171333,
   168726, 166119, 164815, 163512, 162860, 162534, 162208, 161882, 161556, 160905, 158298, 155691,
   153084, 150563, 148129, 145694, 143259, 142042, 140825, 140216, 139607, 138998, 138390, 135956,
   133521, 131086, 128739, 126480, 124220, 121961, 120831, 119702, 118572, 118007, 117724, 117442,
   115183, 112923, 110664, 108493, 106412, 104330, 102248, 101207, 100166, 99125, 98085, 97044,
   96003, 93921, 91840, 89848, 87946, 86045, 84143, 83192, 82241, 81290, 80340, 79864, 79389,
   78438, 76536, 74635, 72824, 71104, 69384, 67665, 66805, 65945, 65085, 64225, 63365, 62505,
   60785, 59065, 57437, 55900, 54363, 52827, 52058, 51674, 51290, 50905, 50521, 50137, 49753,
   49560, 49368, 48984, 48216, 46679, 45143, 43697, 42343, 40989, 40312, 39635, 38958, 38620,
   38282, 37943, 37605, 36928, 36251, 35574, 34220, 32866, 31602, 30428, 29254, 28666, 28079,
   27785, 27492, 27198, 26905, 26611, 26318, 25731, 25437, 25144, 24997, 24850, 24557, 23383,
   22208, 21116, 20106, 19096, 18591, 18086, 17833, 17581, 17328, 17202, 17076, 16949, 16823,
   16697, 16571, 16318, 16066, 15561, 15308, 15056, 14551, 14046, 13035, 11890, 11249, 10609,
   10288, 9968, 9648, 9488, 9328, 9167, 9007, 8927, 8847, 8767, 8687, 8606, 8526, 8446, 8366,
   8286, 8206, 8126, 8046, 7965, 7885, 7805, 7725, 7645, 7565, 7405, 7245, 7085, 6925, 6765, 6444,
   6124, 5484, 4203, 2922, 1641, 1000, 0]

def pts42 : List ℕ :=
  [3262296, 3261296, 3259422, 3256802, 3254764, 3254182, 3253601, 3253019, 3252437, 3251855,
   3251274, 3250692, 3250110, 3249432, 3248657, 3247883, 3247108, 3246914, 3246720, 3246526,
   3246333, 3245559, 3244784, 3244009, 3243235, 3242364, 3241397, 3240430, 3239464, 3238980,
   3238497, 3238255, 3238013, 3237530, 3236563, 3235596, 3234630, 3233567, 3232409, 3231252,
   3230094, 3229515, 3228936, 3228357, 3227778, 3226620, 3225462, 3224304, 3223052, 3221704,
   3220356, 3219009, 3218335, 3217661, 3216987, 3216313, 3214965, 3213618, 3212270, 3210828,
   3209292, 3207756, 3206220, 3205452, 3204684, 3203916, 3203148, 3201612, 3200076, 3198539,
   3196910, 3195187, 3193464, 3191742, 3190880, 3190019, 3189588, 3189157, 3188296, 3186573,
   3184850, 3183127, 3181312, 3179404, 3177497, 3175589, 3174635, 3174158, 3173681, 3173204,
   3172727, 3171773, 3169866, 3167958, 3166050, 3164051, 3161960, 3159870, 3157779, 3156734,
   3155689, 3155166, 3154643, 3153598, 3151507, 3149417, 3147326, 3145145, 3142874, 3140603,
   3138332, 3137196, 3136060, 3134924, 3133789, 3131518, 3129247, 3126975, 3124615, 3122166,
   3119716, 3117267, 3116042, 3114818, 3114205, 3113593, 3112368, 3109919, 3107469, 3105020,
   3102483, 3099858, 3097233, 3094608, 3093295, 3091983, 3091326, 3090670, 3089358, 3086733,
   3084108, 3081483, 3078771, 3075974, 3073176, 3070378, 3068979, 3067581, 3066881, 3066182,
   3064783, 3061985, 3059187, 3056390, 3053507, 3050539, 3047572, 3044604, 3043120, 3041637,
   3040895, 3040153, 3038670, 3035702, 3032735, 3029767, 3026716, 3023582, 3020448, 3017314,
   3015747, 3014180, 3012613, 3011046, 3007912, 3004778, 3001644, 2998428, 2995131, 2991833,
   2988536, 2986887, 2985239, 2983590, 2981941, 2978644, 2975347, 2972050, 2968672, 2965215,
   2961758, 2958301, 2956572, 2954844, 2953979, 2953115, 2951387, 2947930, 2944473, 2941016,
   2937481, 2933868, 2930255, 2926642, 2924835, 2923029, 2922125, 2921222, 2919416, 2915803,
   2912190, 2908577, 2904888, 2901123, 2897358, 2893593, 2891710, 2889828, 2888886, 2887945,
   2886063, 2882298, 2878533, 2874767, 2870928, 2867015, 2863102, 2859189, 2857232, 2855275,
   2853318, 2851362, 2847449, 2843536, 2839623, 2835637, 2831580, 2827523, 2823466, 2821437,
   2819409, 2818394, 2817380, 2815352, 2811295, 2807238, 2803180, 2799054, 2794857, 2790660,
   2786464, 2784365, 2782267, 2781217, 2780168, 2778070, 2773874, 2769677, 2765480, 2761216,
   2756884, 2752553, 2748221, 2746055, 2743889, 2741723, 2739557, 2735226, 2730894, 2726562,
   2722165, 2717703, 2713241, 2708779, 2706548, 2704317, 2703201, 2702085, 2699854, 2695392,
   2690930, 2686468, 2681943, 2677355, 2672767, 2668179, 2665885, 2663592, 2662445, 2661298,
   2659004, 2654416, 2649828, 2645240, 2640592, 2635884, 2631175, 2626467, 2624112, 2621758,
   2620580, 2619403, 2617049, 2612341, 2607632, 2602924, 2598157, 2593333, 2588509, 2583685,
   2581272, 2578860, 2577654, 2576448, 2574036, 2569212, 2564388, 2559564, 2554684, 2549749,
   2544815, 2539880, 2537412, 2534945, 2533711, 2532477, 2530010, 2525075, 2520141, 2515206,
   2510219, 2505179, 2500139, 2495098, 2492578, 2490058, 2487538, 2485018, 2479978, 2474938,
   2469898, 2464809, 2459669, 2454529, 2449389, 2446819, 2444249, 2441679, 2439109, 2433969,
   2428830, 2423690, 2418503, 2413268, 2408034, 2402800, 2400183, 2397566, 2394949, 2392332,
   2387097, 2381863, 2376629, 2371351, 2366028, 2360705, 2355382, 2352720, 2350059, 2348728,
   2347397, 2344736, 2339413, 2334090, 2328767, 2323403, 2317997, 2312591, 2307185, 2304482,
   2301779, 2299076, 2296373, 2290967, 2285561, 2280155, 2274710, 2269227, 2263744, 2258261,
   2255519, 2252777, 2251406, 2250035, 2247294, 2241811, 2236328, 2230844, 2225326, 2219771,
   2214216, 2208662, 2205884, 2203107, 2200330, 2197553, 2191998, 2186443, 2180889, 2175301,
   2169681, 2164061, 2158441, 2155631, 2152821, 2150011, 2147201, 2141581, 2135961, 2130341,
   2124691, 2119012, 2113333, 2107653, 2104813, 2101974, 2099134, 2096294, 2090615, 2084935,
   2079256, 2073550, 2067817, 2062084, 2056352, 2053485, 2050619, 2049185, 2047752, 2044886,
   2039153, 2033420, 2027688, 2021931, 2016151, 2010371, 2004591, 2001701, 1998812, 1995922,
   1993032, 1987252, 1981472, 1975692, 1969891, 1964070, 1958249, 1952428, 1949517, 1946607,
   1945151, 1943696, 1940786, 1934965, 1929145, 1923324, 1917485, 1911629, 1905774, 1899918,
   1896990, 1895526, 1894794, 1894062, 1892598, 1891134, 1888207, 1882351, 1876495, 1870639,
   1864769, 1858885, 1853001, 1847117, 1844174, 1841232, 1838290, 1835348, 1829464, 1823580,
   1817696, 1811800, 1805894, 1799987, 1794081, 1791128, 1788175, 1786698, 1785221, 1782268,
   1776362, 1770455, 1764549, 1758635, 1752712, 1746790, 1740868, 1737906, 1734945, 1731984,
   1729023, 1723101, 1717178, 1711256, 1705329, 1699397, 1693465, 1687534, 1684568, 1681602,
   1680119, 1678636, 1675670, 1669738, 1663806, 1657874, 1651941, 1646006, 1640071, 1634136,
   1631168, 1628201, 1626717, 1625233, 1622266, 1616331, 1610396, 1604461, 1598528, 1592596,
   1586664, 1580732, 1577766, 1576283, 1574800, 1571834, 1568868, 1562937, 1557005, 1551073,
   1545146, 1539224, 1533301, 1527379, 1524418, 1521457, 1519976, 1518495, 1515534, 1509612,
   1503690, 1497767, 1491853, 1485947, 1480040, 1474134, 1471180, 1468227, 1466750, 1465274,
   1462321, 1456414, 1450508, 1444602, 1438706, 1432822, 1426938, 1421054, 1418111, 1415169,
   1412227, 1409285, 1403401, 1397517, 1391632, 1385762, 1379907, 1374051, 1368195, 1365267,
   1363803, 1362339, 1360875, 1359411, 1356484, 1350628, 1344772, 1338916, 1333078, 1327257,
   1321436, 1315615, 1312704, 1309794, 1308338, 1306883, 1303973, 1298152, 1292331, 1286510,
   1280710, 1274930, 1269150, 1263370, 1260480, 1259035, 1257590, 1254700, 1251810, 1246030,
   1240250, 1234470, 1228713, 1222981, 1217248, 1211515, 1208648, 1205782, 1204348, 1202915,
   1200049, 1194317, 1188584, 1182851, 1177145, 1171465, 1165786, 1160106, 1157266, 1154427,
   1153007, 1151587, 1148748, 1143068, 1137389, 1131709, 1126059, 1120439, 1114819, 1109199,
   1106389, 1103579, 1100769, 1097959, 1092339, 1086719, 1081099, 1075511, 1069957, 1064402,
   1058848, 1056070, 1053293, 1051904, 1050515, 1047738, 1042184, 1036629, 1031074, 1025555,
   1020072, 1014589, 1009106, 1006364, 1004993, 1003622, 1002251, 1000880, 998139, 992656, 987173,
   981689, 976245, 970839, 965433, 960027, 957324, 954621, 953269, 951917, 949214, 943808, 938402,
   932996, 927632, 922309, 916986, 911663, 909001, 906340, 905009, 903678, 901017, 895694, 890371,
   885048, 879769, 874535, 869301, 864067, 861449, 858832, 856215, 853598, 848364, 843129, 837895,
   832708, 827568, 822428, 817288, 814718, 812148, 810863, 809578, 807008, 801868, 796729, 791589,
   786499, 781459, 776418, 771378, 768858, 766338, 763818, 761298, 756258, 751218, 746178, 741190,
   736256, 731321, 726386, 723918, 721451, 720217, 718983, 716516, 711581, 706646, 701711, 696832,
   692008, 687183, 682359, 679946, 677534, 675122, 672710, 667886, 663061, 658237, 653471, 648762,
   644053, 639345, 636990, 634636, 633458, 632281, 629927, 625219, 620510, 615801, 611153, 606565,
   601977, 597389, 595095, 592801, 591654, 590507, 588213, 583625, 579037, 574449, 569924, 565462,
   561000, 556537, 554306, 552075, 549844, 547613, 543150, 538688, 534226, 529829, 525497, 521165,
   516833, 514667, 512501, 510335, 508169, 503837, 499505, 495173, 490909, 486712, 482515, 478318,
   476219, 474121, 472023, 470974, 469925, 465728, 461531, 457334, 453207, 449149, 445092, 441035,
   439006, 436977, 434948, 432920, 428863, 424805, 420748, 416763, 412849, 408936, 405022, 403065,
   401109, 399152, 397195, 393282, 389368, 385455, 381615, 377850, 374085, 370319, 368436, 366554,
   364671, 362788, 359023, 355257, 351492, 347803, 344189, 340576, 336963, 335156, 333349, 331542,
   329736, 326123, 322509, 318896, 315360, 311903, 308446, 304988, 303259, 301531, 300666, 299802,
   299369, 298937, 298073, 294616, 291159, 287701, 284324, 281026, 277728, 274430, 272781, 271132,
   269483, 267835, 264537, 261239, 257941, 254725, 251590, 248456, 245321, 243753, 242186, 240619,
   239052, 235917, 232782, 229648, 226596, 223628, 220660, 217691, 216207, 214723, 213239, 211755,
   208787, 205819, 202850, 199967, 197168, 194370, 191571, 190172, 188773, 188073, 187723, 187548,
   187373, 187023, 186673, 185974, 183175, 180377, 177578, 174866, 172240, 169614, 166988, 165675,
   164362, 163049, 161736, 160422, 159109, 156483, 153857, 151319, 148868, 146417, 143967, 142741,
   141516, 140903, 140290, 139677, 139065, 136614, 134163, 131713, 129351, 127078, 124805, 122532,
   121395, 120259, 119690, 119122, 117986, 116849, 115713, 113440, 111167, 108984, 106891, 104798,
   102705, 101658, 100612, 99565, 98519, 97995, 97472, 96426, 94333, 92240, 90238, 88327, 86417,
   84506, 83550, 82595, 81639, 80684, 80206, 79728, 78773, 76862, 74951, 73132, 71404, 69677,
   67950, 67086, 66654, 66222, 65358, 64495, 64063, 63631, 62768, 61040, 59313, 57678, 56135,
   54592, 53049, 52277, 51891, 51506, 51120, 50734, 49963, 49192, 48421, 46878, 45335, 43884,
   42525, 41167, 40487, 39808, 39128, 38788, 38449, 38109, 37770, 37091, 36751, 36411, 35732,
   34374, 33015, 31747, 30569, 29391, 28802, 28213, 27918, 27624, 27330, 27036, 26741, 26447,
   26152, 25858, 25563, 25269, 25121, 24974, 24680, 23502, 22325, 21230, 20217, 19205, 18699,
   18193, 17940, 17687, 17560, 17434, 17307, 17181, 17054, 16927, 16800, 16674, 16421, 16168,
   15662, 15156, 14650, 14144, 13131, 11979, 11333, 10688, 10365, 10042, 9719, 9557, 9396, 9315,
   9234, 9153, 9073, 8992, 8911, 8870, 8830, 8790, 8750, 8709, 8669, 8628, 8588, 8547, 8507, 8487,
   8467, 8447, 8427, 8406, 8386, 8366, 8346, 8325, 8305, 8285, 8265, 8244, 8224, 8204, 8184, 8144,
   8104, 8063, 8023, 7982, 7942, 7901, 7861, 7821, 7781, 7700, 7619, 7538, 7458, 7377, 7296, 7135,
   6974, 6813, 6490, 6167, 5521, 4229, 2938, 1646, 1000, 0]

def pts43 : List ℕ :=
  [3683844, 3682844, 3680970, 3678349, 3673983, 3670977, 3670202, 3669426, 3668651, 3668457,
   3668263, 3667876, 3667488, 3667101, 3666326, 3665551, 3664776, 3663905, 3662937, 3661970,
   3661002, 3660518, 3660035, 3659551, 3659067, 3658100, 3657132, 3656165, 3655102, 3653943,
   3652784, 3651625, 3651045, 3650466, 3650176, 3649886, 3649307, 3648148, 3646989, 3645830,
   3644576, 3643227, 3641877, 3640528, 3639853, 3639179, 3638841, 3638504, 3637830, 3636480,
   3635131, 3633782, 3632338, 3630799, 3629261, 3627722, 3626953, 3626184, 3625799, 3625415,
   3624646, 3623107, 3621569, 3620030, 3618398, 3616672, 3614946, 3613220, 3612357, 3611494,
   3611062, 3610631, 3609768, 3608042, 3606316, 3604590, 3602771, 3600859, 3598947, 3597035,
   3596079, 3595123, 3594167, 3593211, 3591299, 3589387, 3587475, 3585470, 3583374, 3581278,
   3579182, 3578134, 3577610, 3577348, 3577086, 3576823, 3576561, 3576037, 3574989, 3572893,
   3570797, 3568701, 3566513, 3564235, 3561956, 3559678, 3558539, 3557969, 3557400, 3557115,
   3556830, 3556260, 3555121, 3552843, 3550564, 3548286, 3545918, 3543459, 3541001, 3538542,
   3537313, 3536698, 3536084, 3535469, 3534854, 3533625, 3531167, 3528708, 3526250, 3523703,
   3521067, 3518430, 3515794, 3514476, 3513817, 3513158, 3511840, 3510522, 3507886, 3505250,
   3502613, 3499890, 3497078, 3494267, 3491456, 3490050, 3489347, 3488995, 3488644, 3487941,
   3487238, 3485833, 3483022, 3480210, 3477399, 3474501, 3471517, 3468534, 3465550, 3464058,
   3462566, 3461074, 3459582, 3456598, 3453614, 3450630, 3447561, 3444408, 3441254, 3438101,
   3436524, 3434947, 3434158, 3433370, 3431793, 3428640, 3425486, 3422333, 3419096, 3415775,
   3412455, 3409135, 3407475, 3405815, 3404984, 3404154, 3402494, 3399174, 3395854, 3392533,
   3389131, 3385647, 3382164, 3378680, 3376938, 3376067, 3375196, 3373454, 3371712, 3368228,
   3364744, 3361260, 3357696, 3354052, 3350408, 3346764, 3344942, 3343120, 3341298, 3339476,
   3335832, 3332187, 3328543, 3324821, 3321020, 3317219, 3313418, 3311517, 3309617, 3308666,
   3307716, 3305816, 3302015, 3298214, 3294413, 3290536, 3286582, 3282628, 3278674, 3276696,
   3274719, 3272742, 3270765, 3266811, 3262857, 3258903, 3254874, 3250771, 3246667, 3242563,
   3240511, 3238460, 3237434, 3236408, 3234356, 3230253, 3226149, 3222046, 3217869, 3213620,
   3209371, 3205122, 3202997, 3200873, 3199810, 3198748, 3196624, 3192374, 3188125, 3183876,
   3179556, 3175166, 3170775, 3166384, 3164189, 3161994, 3160896, 3159798, 3157603, 3153213,
   3148822, 3144431, 3139972, 3135444, 3130916, 3126388, 3124124, 3121860, 3119596, 3117332,
   3112804, 3108276, 3103748, 3099153, 3094492, 3089831, 3085170, 3082839, 3080509, 3079343,
   3078178, 3075848, 3071187, 3066526, 3061865, 3057139, 3052350, 3047560, 3042770, 3040375,
   3037981, 3036783, 3035586, 3033191, 3028401, 3023612, 3018822, 3013970, 3009056, 3004142,
   2999229, 2996772, 2994315, 2991858, 2989401, 2984487, 2979573, 2974660, 2969686, 2964653,
   2959620, 2954586, 2952069, 2949553, 2948294, 2947036, 2944520, 2939487, 2934453, 2929420,
   2924330, 2919182, 2914034, 2908886, 2906312, 2903738, 2901164, 2898590, 2893442, 2888294,
   2883146, 2877944, 2872686, 2867428, 2862171, 2859542, 2856913, 2854284, 2851655, 2846398,
   2841140, 2835882, 2830572, 2825210, 2819847, 2814485, 2811803, 2809122, 2806441, 2803760,
   2798397, 2793035, 2787672, 2782260, 2776798, 2771336, 2765873, 2763142, 2760411, 2759045,
   2757680, 2754949, 2749487, 2744025, 2738563, 2733053, 2727496, 2721940, 2716383, 2713604,
   2710826, 2709437, 2708048, 2705270, 2699713, 2694156, 2688599, 2682998, 2677352, 2671706,
   2666060, 2663237, 2660414, 2659002, 2657591, 2654768, 2649122, 2643476, 2637830, 2632143,
   2626413, 2620683, 2614953, 2612088, 2610655, 2609223, 2606358, 2603493, 2597763, 2592034,
   2586304, 2580535, 2574726, 2568918, 2563110, 2560205, 2557301, 2554397, 2551493, 2545685,
   2539876, 2534068, 2528223, 2522342, 2516461, 2510579, 2507638, 2504698, 2503227, 2501757,
   2498817, 2492936, 2487054, 2481173, 2475258, 2469309, 2463361, 2457412, 2454437, 2451463,
   2448489, 2445515, 2439566, 2433617, 2427669, 2421689, 2415679, 2409669, 2403658, 2400653,
   2397648, 2396145, 2394642, 2391637, 2385627, 2379617, 2373606, 2367568, 2361501, 2355435,
   2349369, 2346335, 2343302, 2341785, 2340269, 2337236, 2331169, 2325103, 2319037, 2312945,
   2306828, 2300712, 2294595, 2291536, 2288478, 2285420, 2282362, 2276245, 2270128, 2264011,
   2257873, 2251711, 2245550, 2239389, 2236308, 2233228, 2231687, 2230147, 2227067, 2220906,
   2214744, 2208583, 2202403, 2196203, 2190003, 2183803, 2180703, 2177604, 2174504, 2171404,
   2165204, 2159004, 2152804, 2146588, 2140356, 2134123, 2127891, 2124774, 2121658, 2120099,
   2118541, 2115425, 2109193, 2102960, 2096728, 2090482, 2084222, 2077963, 2071704, 2068574,
   2065444, 2062314, 2059185, 2052926, 2046666, 2040407, 2034137, 2027857, 2021576, 2015296,
   2012156, 2009016, 2007445, 2005875, 2002735, 1996455, 1990175, 1983895, 1977607, 1971312,
   1965016, 1958721, 1955573, 1952426, 1950852, 1949278, 1946131, 1939836, 1933540, 1927245,
   1920945, 1914641, 1908337, 1902033, 1898881, 1897305, 1895729, 1894940, 1894152, 1892576,
   1889424, 1883120, 1876816, 1870512, 1864206, 1857899, 1851592, 1845284, 1842130, 1838977,
   1837400, 1835823, 1832670, 1826363, 1820056, 1813748, 1807443, 1801139, 1794834, 1788530,
   1785378, 1782226, 1779074, 1775922, 1769618, 1763313, 1757009, 1750709, 1744414, 1738119,
   1731824, 1728676, 1725528, 1722380, 1719233, 1712938, 1706643, 1700348, 1694060, 1687779,
   1681499, 1675219, 1672079, 1668939, 1667368, 1665798, 1662658, 1656378, 1650098, 1643817,
   1637548, 1631288, 1625029, 1618769, 1615639, 1612510, 1610945, 1609380, 1606251, 1599991,
   1593732, 1587472, 1581226, 1574994, 1568761, 1562529, 1559412, 1556296, 1553180, 1550064,
   1543831, 1537598, 1531366, 1525150, 1518950, 1512750, 1506550, 1503450, 1500351, 1498801,
   1497251, 1494151, 1487951, 1481751, 1475551, 1469371, 1463210, 1457048, 1450887, 1447806,
   1444726, 1443185, 1441645, 1438565, 1432404, 1426242, 1420081, 1413942, 1407826, 1401709,
   1395592, 1392533, 1389475, 1386417, 1383359, 1377242, 1371125, 1365009, 1358917, 1352851,
   1346784, 1340718, 1337684, 1334651, 1333134, 1331618, 1328585, 1322518, 1316452, 1310386,
   1304347, 1298337, 1292326, 1286316, 1283310, 1280305, 1278802, 1277300, 1274295, 1268285,
   1262274, 1256264, 1250284, 1244336, 1238387, 1232438, 1229464, 1226490, 1225002, 1223515,
   1220541, 1214592, 1208643, 1202695, 1196780, 1190898, 1185017, 1179136, 1176195, 1173255,
   1170314, 1167373, 1161492, 1155611, 1149729, 1143884, 1138076, 1132268, 1126459, 1123555,
   1120651, 1117747, 1114843, 1109034, 1103226, 1097418, 1091648, 1085919, 1080189, 1074459,
   1071594, 1068729, 1065864, 1062999, 1057269, 1051539, 1045809, 1040121, 1034475, 1028829,
   1023183, 1020360, 1017537, 1014714, 1011891, 1006245, 1000599, 994953, 989352, 983795, 978238,
   972681, 969903, 967125, 965735, 964346, 961568, 956011, 950454, 944898, 939388, 933926, 928464,
   923001, 920270, 917539, 914808, 912077, 906615, 901152, 895690, 890278, 884915, 879553, 874190,
   871509, 868828, 867487, 866146, 863465, 858103, 852740, 847377, 842067, 836810, 831552, 826294,
   823665, 821036, 818407, 815778, 810521, 805263, 800005, 794802, 789654, 784506, 779358, 776784,
   774210, 772923, 771636, 769062, 763914, 758766, 753618, 748528, 743494, 738461, 733428, 730911,
   728394, 727135, 725877, 723361, 718328, 713294, 708261, 703287, 698374, 693460, 688546, 686089,
   683632, 681175, 678718, 673804, 668890, 663976, 659124, 654334, 649545, 644755, 642360, 639965,
   637570, 636372, 635175, 630385, 625595, 620806, 616080, 611419, 606758, 602097, 599766, 597435,
   595104, 592774, 588113, 583452, 578790, 574196, 569668, 565139, 560611, 558347, 556083, 553819,
   551555, 547027, 542499, 537971, 533511, 529120, 524729, 520339, 518143, 515948, 514850, 513752,
   511557, 507166, 502775, 498385, 494064, 489815, 485566, 481316, 479191, 477067, 476004, 474942,
   472818, 468569, 464319, 460070, 455893, 451790, 447686, 443582, 441530, 439478, 438452, 437426,
   435374, 431271, 427167, 423063, 419034, 415079, 411125, 407171, 405193, 403216, 402227, 401239,
   399262, 395308, 391353, 387399, 383521, 379720, 375918, 372117, 370216, 368316, 367365, 366415,
   365940, 365465, 364515, 360714, 356912, 353111, 349388, 345744, 342099, 338455, 336632, 334810,
   332988, 331166, 327521, 323877, 320232, 316668, 313184, 309699, 306215, 304473, 302731, 300989,
   299247, 295762, 292278, 288794, 285391, 282070, 278750, 275429, 273768, 272108, 271277, 270447,
   269617, 268787, 265466, 262146, 258825, 255587, 252433, 249279, 246125, 244548, 242971, 242182,
   241393, 240604, 239816, 236662, 233508, 230354, 227284, 224300, 221315, 218331, 216838, 215346,
   214599, 213853, 213107, 212361, 209377, 206392, 203408, 200509, 197697, 194885, 192073, 190666,
   189260, 187854, 186448, 185042, 183636, 180824, 178011, 175287, 172649, 170012, 167375, 166056,
   164738, 164078, 163419, 162101, 160782, 159463, 156826, 154189, 151640, 149180, 146721, 144261,
   143031, 141801, 140571, 139341, 138111, 136881, 134422, 131962, 129592, 127312, 125031, 122751,
   121611, 120471, 119331, 118191, 115911, 113630, 111350, 109161, 107062, 104964, 102865, 101816,
   100767, 99717, 98668, 97619, 96570, 94471, 92372, 90366, 88450, 86535, 84620, 83662, 82705,
   81747, 80789, 79831, 78874, 76959, 75044, 73221, 71490, 69760, 68029, 67164, 66731, 66299,
   65433, 64568, 64135, 63702, 62837, 61107, 59376, 57738, 56193, 54648, 53103, 52330, 51944,
   51558, 51171, 50785, 50398, 50012, 49818, 49625, 49239, 48467, 46922, 45377, 43924, 42564,
   41204, 40523, 39843, 39163, 38823, 38483, 38143, 37803, 37123, 36443, 35763, 34402, 33042,
   31773, 30594, 29415, 28825, 28236, 27941, 27646, 27351, 27057, 26762, 26468, 26173, 25879,
   25584, 25289, 25141, 24994, 24700, 23521, 22342, 21246, 20233, 19220, 18714, 18208, 17954,
   17701, 17574, 17448, 17321, 17195, 17068, 16941, 16814, 16688, 16561, 16435, 16182, 15675,
   15169, 14915, 14662, 14156, 13143, 11990, 11343, 10697, 10373, 10050, 9727, 9565, 9404, 9323,
   9242, 9161, 9080, 8999, 8958, 8918, 8877, 8837, 8797, 8757, 8716, 8676, 8635, 8595, 8574, 8554,
   8534, 8514, 8494, 8474, 8454, 8434, 8413, 8393, 8373, 8353, 8332, 8312, 8292, 8272, 8251, 8231,
   8211, 8191, 8171, 8151, 8131, 8111, 8090, 8070, 8030, 7989, 7949, 7908, 7868, 7827, 7787, 7746,
   7706, 7625, 7544, 7464, 7383, 7302, 7141, 6979, 6818, 6494, 6171, 5525, 4232, 2939, 1646, 1000,
   0]

def pts44 : List ℕ :=
  [4209933, 4208933, 4207058, 4204435, 4200065, 4197057, 4196281, 4195505, 4194729, 4193953,
   4193177, 4192402, 4191626, 4190850, 4189978, 4189009, 4188040, 4187072, 4186587, 4186103,
   4185619, 4185135, 4184166, 4183198, 4182229, 4181164, 4180004, 4178843, 4177683, 4177102,
   4176522, 4175942, 4175362, 4174201, 4173041, 4171880, 4170624, 4169273, 4167921, 4166570,
   4165894, 4165556, 4165218, 4164542, 4163867, 4162515, 4161163, 4159812, 4158366, 4156824,
   4155283, 4153741, 4152970, 4152200, 4151814, 4151429, 4150659, 4149117, 4147576, 4146035,
   4144399, 4142669, 4140939, 4139209, 4138344, 4137479, 4137046, 4136614, 4135749, 4134019,
   4132289, 4130559, 4128736, 4126819, 4124902, 4122984, 4122025, 4121067, 4120587, 4120108,
   4119150, 4117233, 4115316, 4113399, 4111389, 4109286, 4107184, 4105081, 4104030, 4102979,
   4102453, 4101927, 4100876, 4098773, 4096671, 4094568, 4092373, 4090087, 4087801, 4085514,
   4084371, 4083228, 4082656, 4082084, 4080941, 4078655, 4076368, 4074082, 4071704, 4069236,
   4066768, 4064299, 4063065, 4061831, 4060597, 4059363, 4056894, 4054426, 4051958, 4049399,
   4046751, 4044103, 4041455, 4040131, 4038807, 4038144, 4037482, 4036158, 4033510, 4030862,
   4028214, 4025477, 4022651, 4019825, 4016999, 4015586, 4014173, 4012760, 4011347, 4008522,
   4005696, 4002870, 3999956, 3996955, 3993954, 3990953, 3989452, 3987952, 3987201, 3986451,
   3984951, 3981949, 3978948, 3975947, 3972859, 3969686, 3966512, 3963338, 3961751, 3960164,
   3958577, 3956990, 3953816, 3950642, 3947468, 3944209, 3940864, 3937520, 3934176, 3932504,
   3930832, 3929160, 3927488, 3924144, 3920800, 3917455, 3914028, 3910516, 3907004, 3903493,
   3901737, 3899981, 3899103, 3898225, 3896470, 3892958, 3889447, 3885935, 3882341, 3878665,
   3874989, 3871313, 3869475, 3867637, 3865799, 3863961, 3860285, 3856609, 3852933, 3849176,
   3845339, 3841501, 3837664, 3835745, 3833826, 3831907, 3829989, 3826152, 3822314, 3818477,
   3814560, 3810564, 3806569, 3802573, 3800575, 3798577, 3797578, 3796579, 3794582, 3790586,
   3786590, 3782594, 3778521, 3774371, 3770220, 3766069, 3763994, 3762956, 3761919, 3760881,
   3759843, 3757768, 3753617, 3749467, 3745316, 3741090, 3736788, 3732486, 3728184, 3726032,
   3723881, 3721730, 3719579, 3715277, 3710975, 3706673, 3702297, 3697847, 3693397, 3688947,
   3686722, 3685609, 3684497, 3682272, 3680047, 3675597, 3671147, 3666697, 3662175, 3657581,
   3652986, 3648392, 3646095, 3643798, 3641501, 3639204, 3634610, 3630015, 3625421, 3620757,
   3616022, 3611288, 3606553, 3604185, 3601818, 3599451, 3597084, 3592349, 3587615, 3582880,
   3578077, 3573206, 3568335, 3563464, 3561028, 3558593, 3557375, 3556157, 3553722, 3548851,
   3543980, 3539109, 3534172, 3529168, 3524165, 3519161, 3516659, 3514158, 3511656, 3509154,
   3504151, 3499147, 3494144, 3489076, 3483945, 3478813, 3473681, 3471115, 3468550, 3467267,
   3465984, 3463418, 3458286, 3453154, 3448023, 3442829, 3437573, 3432318, 3427062, 3424434,
   3421806, 3419178, 3416550, 3411295, 3406039, 3400783, 3395468, 3390092, 3384717, 3379342,
   3376654, 3373967, 3371279, 3368591, 3363216, 3357841, 3352465, 3347032, 3341542, 3336051,
   3330561, 3327815, 3325070, 3323697, 3322325, 3319580, 3314089, 3308599, 3303108, 3297563,
   3291962, 3286360, 3280759, 3277958, 3275158, 3273757, 3272357, 3269557, 3263956, 3258355,
   3252754, 3247100, 3241393, 3235686, 3229979, 3227125, 3224272, 3222845, 3221418, 3218565,
   3212858, 3207151, 3201444, 3195686, 3189878, 3184069, 3178261, 3175357, 3172453, 3169549,
   3166645, 3160836, 3155028, 3149220, 3143364, 3137459, 3131554, 3125650, 3122697, 3119745,
   3118268, 3116792, 3113840, 3107936, 3102031, 3096127, 3090176, 3084180, 3078184, 3072188,
   3069190, 3066192, 3063194, 3060196, 3054200, 3048203, 3042207, 3036168, 3030085, 3024003,
   3017920, 3014879, 3011838, 3010317, 3008796, 3005755, 2999672, 2993590, 2987507, 2981384,
   2975220, 2969056, 2962892, 2959810, 2956728, 2953646, 2950564, 2944400, 2938236, 2932072,
   2925869, 2919629, 2913389, 2907148, 2904028, 2900908, 2897788, 2894668, 2888427, 2882187,
   2875946, 2869671, 2863359, 2857048, 2850736, 2847580, 2844425, 2842847, 2841269, 2838113,
   2831801, 2825490, 2819178, 2812834, 2806457, 2800079, 2793702, 2790513, 2787324, 2784135,
   2780947, 2774570, 2768192, 2761815, 2755407, 2748969, 2742531, 2736093, 2732874, 2729655,
   2726436, 2723217, 2716779, 2710341, 2703903, 2697437, 2690944, 2684451, 2677958, 2674711,
   2671464, 2668217, 2664971, 2658478, 2651985, 2645491, 2638973, 2632430, 2625887, 2619344,
   2616072, 2612801, 2611165, 2609529, 2606258, 2599714, 2593171, 2586628, 2580063, 2573475,
   2566888, 2560300, 2557006, 2553713, 2552066, 2550419, 2547125, 2540538, 2533950, 2527363,
   2520756, 2514129, 2507503, 2500876, 2497563, 2494250, 2492593, 2490936, 2487623, 2480997,
   2474370, 2467744, 2461100, 2454440, 2447780, 2441121, 2437791, 2436126, 2434461, 2431131,
   2427801, 2421141, 2414481, 2407821, 2401147, 2394459, 2387771, 2381083, 2377739, 2374395,
   2371051, 2367708, 2361020, 2354332, 2347644, 2340945, 2334235, 2327525, 2320814, 2317459,
   2314104, 2310749, 2307394, 2300684, 2293973, 2287263, 2280545, 2273818, 2267091, 2260364,
   2257000, 2253637, 2251955, 2250273, 2246910, 2240183, 2233456, 2226729, 2219996, 2213258,
   2206520, 2199781, 2196412, 2193043, 2189674, 2186305, 2179567, 2172829, 2166090, 2159349,
   2152606, 2145862, 2139118, 2135746, 2134060, 2132374, 2129002, 2125630, 2118886, 2112143,
   2105399, 2098655, 2091911, 2085167, 2078424, 2075052, 2073366, 2071680, 2068308, 2064936,
   2058192, 2051448, 2044705, 2037964, 2031225, 2024487, 2017749, 2014380, 2012695, 2011011,
   2009326, 2007641, 2004272, 1997534, 1990796, 1984058, 1977325, 1970598, 1963871, 1957144,
   1953780, 1950417, 1948735, 1947053, 1943690, 1936963, 1930236, 1923509, 1916791, 1910080,
   1903370, 1896660, 1893305, 1889950, 1888272, 1886594, 1883239, 1876529, 1869819, 1863109,
   1856410, 1849722, 1843034, 1836346, 1833002, 1829658, 1826314, 1822970, 1816282, 1809595,
   1802907, 1796233, 1789573, 1782913, 1776253, 1772923, 1769593, 1767928, 1766263, 1762933,
   1756273, 1749613, 1742953, 1736310, 1729683, 1723057, 1716430, 1713117, 1709804, 1708147,
   1706490, 1703177, 1696551, 1689924, 1683298, 1676691, 1670103, 1663516, 1656928, 1653634,
   1650341, 1647047, 1643753, 1637166, 1630578, 1623990, 1617425, 1610882, 1604339, 1597796,
   1594524, 1591253, 1587981, 1584709, 1578166, 1571623, 1565080, 1558562, 1552068, 1545575,
   1539082, 1535835, 1532589, 1529342, 1526095, 1519602, 1513109, 1506616, 1500150, 1493712,
   1487274, 1480836, 1477617, 1474398, 1471179, 1467960, 1461522, 1455084, 1448646, 1442238,
   1435861, 1429483, 1423106, 1419917, 1416728, 1415133, 1413539, 1410351, 1403973, 1397596,
   1391218, 1384874, 1378562, 1372251, 1365939, 1362783, 1359628, 1356472, 1353316, 1347005,
   1340693, 1334382, 1328106, 1321865, 1315625, 1309385, 1306264, 1303144, 1301584, 1300024,
   1296904, 1290663, 1284423, 1278183, 1271980, 1265816, 1259652, 1253488, 1250406, 1247324,
   1245783, 1244242, 1241160, 1234996, 1228832, 1222668, 1216544, 1210462, 1204379, 1198296,
   1195255, 1192214, 1190693, 1189172, 1186131, 1180049, 1173966, 1167883, 1161844, 1155848,
   1149852, 1143855, 1140857, 1137859, 1134861, 1131863, 1125867, 1119871, 1113875, 1107924,
   1102020, 1096115, 1090210, 1087258, 1084306, 1082829, 1081353, 1078401, 1072496, 1066592,
   1060687, 1054830, 1049022, 1043214, 1037406, 1034501, 1031597, 1028693, 1025789, 1019981,
   1014172, 1008364, 1002606, 996899, 991192, 985485, 982631, 979778, 978351, 976924, 974071,
   968364, 962657, 956950, 951296, 945694, 940093, 934492, 931691, 928891, 927490, 926090, 923290,
   917689, 912087, 906486, 900940, 895450, 889959, 884469, 881723, 878978, 876233, 873488, 867997,
   862506, 857016, 851583, 846208, 840832, 835457, 832769, 830081, 827393, 824706, 819330, 813955,
   808580, 803264, 798008, 792752, 787497, 784869, 783555, 782241, 779613, 776985, 771729, 766474,
   761218, 756024, 750892, 745760, 740628, 738062, 735497, 734214, 732931, 731648, 730365, 725233,
   720101, 714969, 709902, 704898, 699895, 694891, 692389, 689887, 687385, 684884, 679880, 674877,
   669873, 664936, 660065, 655193, 650322, 647886, 645451, 644233, 643015, 640580, 635709, 630838,
   625966, 621163, 616429, 611694, 606959, 604592, 602225, 601041, 599857, 597490, 592755, 588020,
   583286, 578621, 574027, 569432, 564838, 562541, 560244, 559095, 557946, 555649, 551055, 546460,
   541866, 537344, 532894, 528443, 523993, 521768, 519543, 517318, 515093, 510643, 506193, 501742,
   497366, 493064, 488762, 484459, 482308, 480157, 478006, 475855, 471552, 467250, 462948, 458721,
   454570, 450419, 446269, 444193, 442118, 441080, 440042, 437967, 433816, 429665, 425514, 421441,
   417445, 413449, 409453, 407455, 405457, 403459, 401461, 397465, 393469, 389473, 385556, 381719,
   377881, 374043, 372124, 370205, 368286, 366367, 362530, 358692, 354854, 351097, 347421, 343744,
   340068, 338229, 336391, 334553, 332715, 329039, 325362, 321686, 318092, 314580, 311068, 307556,
   305800, 304044, 302288, 301410, 300532, 297020, 293508, 289996, 286568, 283223, 279878, 276534,
   274861, 273189, 272352, 271516, 270680, 269844, 266500, 263155, 259811, 256551, 253376, 250202,
   247027, 245440, 243853, 243059, 242265, 241471, 240678, 237504, 234329, 231154, 228066, 225064,
   222062, 219061, 217560, 216059, 214558, 213057, 210055, 207053, 204051, 201137, 198310, 195483,
   192657, 191243, 189830, 189123, 188416, 187709, 187003, 184176, 181350, 178523, 175785, 173136,
   170486, 167837, 166512, 165188, 164525, 163863, 162539, 161214, 159889, 157240, 154591, 152031,
   149562, 147092, 144622, 143387, 142152, 141534, 140917, 139683, 138448, 137213, 134743, 132273,
   129895, 127606, 125318, 123030, 121886, 120742, 120169, 119597, 119025, 118739, 118453, 116165,
   113877, 111589, 109392, 107287, 105182, 103077, 102024, 100972, 99919, 98867, 98340, 97814,
   96762, 94657, 92552, 90540, 88620, 86699, 84779, 83819, 82859, 81898, 80938, 80458, 79978,
   79018, 77098, 75178, 73350, 71616, 69881, 68147, 67279, 66845, 66412, 65545, 64678, 64244,
   63810, 62943, 61209, 59474, 57833, 56285, 54737, 53189, 52415, 52028, 51641, 51254, 50867,
   50480, 50093, 49899, 49705, 49318, 48544, 46996, 45448, 43993, 42630, 41268, 40587, 39906,
   39224, 38883, 38543, 38202, 37862, 37181, 36840, 36499, 35818, 34456, 33093, 31822, 30642,
   29461, 28871, 28281, 27986, 27691, 27396, 27101, 26805, 26510, 26215, 25920, 25625, 25330,
   25035, 24740, 23560, 22379, 21282, 20268, 19254, 18747, 18241, 17987, 17734, 17607, 17480,
   17353, 17227, 17100, 16973, 16846, 16720, 16593, 16466, 16213, 15706, 15199, 14692, 14185,
   13171, 12016, 11368, 10720, 10396, 10072, 9910, 9748, 9586, 9424, 9343, 9262, 9181, 9100, 9059,
   9019, 8978, 8938, 8897, 8857, 8816, 8796, 8776, 8755, 8735, 8715, 8695, 8674, 8654, 8634, 8614,
   8593, 8573, 8553, 8543, 8533, 8522, 8512, 8502, 8492, 8482, 8472, 8462, 8452, 8441, 8431, 8421,
   8411, 8401, 8391, 8381, 8371, 8360, 8350, 8340, 8330, 8320, 8310, 8300, 8290, 8279, 8269, 8259,
   8249, 8239, 8229, 8219, 8209, 8198, 8188, 8168, 8148, 8128, 8107, 8087, 8067, 8047, 8026, 8006,
   7986, 7966, 7945, 7925, 7885, 7844, 7804, 7763, 7723, 7682, 7642, 7561, 7480, 7399, 7318, 7156,
   6994, 6832, 6508, 6184, 5536, 4240, 2944, 1648, 1000, 0]

def pts45 : List ℕ :=
  [4764319, 4763319, 4761445, 4758824, 4754458, 4751451, 4750676, 4749900, 4749125, 4748349,
   4747574, 4746799, 4746023, 4745248, 4744376, 4743408, 4742440, 4741472, 4740987, 4740503,
   4740019, 4739535, 4738567, 4737599, 4736631, 4735567, 4734406, 4733246, 4732086, 4731506,
   4730926, 4730635, 4730345, 4729765, 4728605, 4727445, 4726285, 4725029, 4723677, 4722326,
   4720974, 4720298, 4719623, 4718947, 4718271, 4716920, 4715568, 4714217, 4712770, 4711229,
   4709687, 4708145, 4707374, 4706604, 4706218, 4705833, 4705062, 4703520, 4701979, 4700437,
   4698801, 4697070, 4695339, 4693608, 4692743, 4692310, 4691878, 4691445, 4691012, 4690147,
   4688416, 4686685, 4684954, 4683130, 4681211, 4679292, 4677374, 4676414, 4675455, 4674496,
   4673537, 4671618, 4669699, 4667781, 4665769, 4663664, 4661559, 4659454, 4658401, 4657349,
   4656822, 4656296, 4655244, 4653139, 4651034, 4648929, 4646731, 4644441, 4642151, 4639861,
   4638716, 4638143, 4637571, 4636426, 4635281, 4632992, 4630702, 4628412, 4626030, 4623557,
   4621084, 4618611, 4617374, 4616138, 4615519, 4614901, 4613665, 4611192, 4608718, 4606245,
   4603681, 4601027, 4598372, 4595718, 4594390, 4593063, 4591736, 4590409, 4587754, 4585100,
   4582445, 4579701, 4576867, 4574033, 4571199, 4569782, 4568366, 4567657, 4566949, 4565532,
   4562698, 4559864, 4557030, 4554107, 4551096, 4548085, 4545073, 4543567, 4542062, 4541309,
   4540556, 4539051, 4536039, 4533028, 4530017, 4526918, 4523731, 4520545, 4517359, 4515765,
   4514172, 4512579, 4510986, 4507799, 4504613, 4501426, 4498153, 4494794, 4491435, 4488076,
   4486396, 4484716, 4483876, 4483036, 4481357, 4477998, 4474639, 4471279, 4467835, 4464305,
   4460776, 4457246, 4455481, 4453717, 4451952, 4450187, 4446657, 4443128, 4439598, 4435985,
   4432287, 4428590, 4424893, 4423044, 4421195, 4419346, 4417498, 4413800, 4410103, 4406406,
   4402626, 4398763, 4394901, 4391039, 4389107, 4387176, 4386210, 4385245, 4383314, 4379451,
   4375589, 4371726, 4367783, 4363758, 4359734, 4355709, 4353696, 4351684, 4350678, 4349672,
   4347660, 4343635, 4339610, 4335586, 4331482, 4327298, 4323114, 4318930, 4316838, 4314746,
   4312654, 4310562, 4306378, 4302194, 4298010, 4293748, 4289408, 4285068, 4280728, 4278558,
   4276388, 4274218, 4272048, 4267708, 4263368, 4259028, 4254611, 4250118, 4245625, 4241132,
   4238885, 4236639, 4235515, 4234392, 4232145, 4227652, 4223159, 4218666, 4214098, 4209455,
   4204813, 4200170, 4197848, 4195527, 4194366, 4193205, 4190884, 4186241, 4181598, 4176956,
   4172240, 4167450, 4162661, 4157872, 4155477, 4153083, 4151885, 4150688, 4148294, 4143505,
   4138716, 4133926, 4129066, 4124134, 4119202, 4114270, 4111804, 4109338, 4106872, 4104406,
   4099474, 4094542, 4089610, 4084609, 4079538, 4074467, 4069396, 4066860, 4064324, 4061788,
   4059253, 4054182, 4049111, 4044040, 4038901, 4033695, 4028488, 4023281, 4020678, 4018075,
   4016773, 4015471, 4012868, 4007662, 4002455, 3997248, 3991976, 3986638, 3981300, 3975961,
   3973292, 3970623, 3967954, 3965285, 3959947, 3954608, 3949270, 3943868, 3938402, 3932936,
   3927470, 3924737, 3923370, 3922004, 3919271, 3916538, 3911072, 3905606, 3900140, 3894613,
   3889023, 3883433, 3877844, 3875049, 3872254, 3869459, 3866664, 3861075, 3855485, 3849895,
   3844246, 3838536, 3832827, 3827118, 3824263, 3821409, 3818554, 3815699, 3809990, 3804281,
   3798571, 3792804, 3786980, 3781155, 3775330, 3772417, 3769505, 3768049, 3766593, 3763681,
   3757856, 3752031, 3746206, 3740326, 3734390, 3728454, 3722518, 3719550, 3716583, 3715099,
   3713615, 3710647, 3704711, 3698775, 3692839, 3686850, 3680807, 3674764, 3668722, 3665700,
   3662679, 3661168, 3659657, 3656636, 3650594, 3644551, 3638508, 3632414, 3626269, 3620124,
   3613979, 3610906, 3607834, 3606297, 3604761, 3601689, 3595544, 3589399, 3583254, 3577060,
   3570817, 3564574, 3558331, 3555209, 3552088, 3550527, 3548966, 3545845, 3539602, 3533359,
   3527116, 3520826, 3514490, 3508154, 3501818, 3498649, 3495481, 3492313, 3489145, 3482809,
   3476473, 3470137, 3463756, 3457331, 3450906, 3444481, 3441268, 3438056, 3434844, 3431632,
   3425207, 3418782, 3412357, 3405890, 3399381, 3392872, 3386364, 3383109, 3379855, 3378227,
   3376600, 3373346, 3366837, 3360328, 3353820, 3347271, 3340683, 3334095, 3327507, 3324213,
   3322566, 3320919, 3317625, 3314331, 3307743, 3301155, 3294567, 3287942, 3281280, 3274618,
   3267955, 3264624, 3261293, 3257962, 3254631, 3247969, 3241306, 3234644, 3227947, 3221215,
   3214483, 3207752, 3204386, 3201020, 3197654, 3194288, 3187556, 3180825, 3174093, 3167329,
   3160533, 3153737, 3146940, 3143542, 3140144, 3136746, 3133348, 3126552, 3119755, 3112959,
   3106133, 3099277, 3092422, 3085566, 3082138, 3078710, 3075282, 3071854, 3064999, 3058143,
   3051287, 3044404, 3037494, 3030584, 3023673, 3020218, 3016763, 3013308, 3009853, 3002943,
   2996032, 2989122, 2982187, 2975228, 2968268, 2961308, 2957828, 2954349, 2950869, 2947389,
   2940429, 2933470, 2926510, 2919528, 2912524, 2905520, 2898516, 2895014, 2891512, 2888010,
   2884508, 2877504, 2870500, 2863496, 2856473, 2849429, 2842386, 2835343, 2831821, 2828300,
   2826539, 2824778, 2821257, 2814214, 2807171, 2800127, 2793067, 2785990, 2778913, 2771836,
   2768297, 2766527, 2764758, 2763873, 2762988, 2761219, 2757681, 2750604, 2743527, 2736450,
   2729358, 2722252, 2715146, 2708040, 2704487, 2700934, 2699157, 2697381, 2693828, 2686722,
   2679616, 2672510, 2665392, 2658263, 2651133, 2644004, 2640439, 2636874, 2633309, 2629744,
   2622615, 2615485, 2608355, 2601217, 2594069, 2586921, 2579773, 2576199, 2572625, 2569051,
   2565477, 2558329, 2551181, 2544033, 2536878, 2529717, 2522556, 2515395, 2511814, 2508234,
   2506443, 2504653, 2501072, 2493911, 2486750, 2479589, 2472424, 2465255, 2458086, 2450917,
   2447332, 2443748, 2441955, 2440163, 2436579, 2429410, 2422241, 2415072, 2407901, 2400730,
   2393558, 2386386, 2382800, 2379215, 2377422, 2375629, 2372043, 2364871, 2357700, 2350528,
   2343358, 2336189, 2329020, 2321851, 2318266, 2314682, 2312889, 2311097, 2307513, 2300344,
   2293175, 2286006, 2278841, 2271679, 2264518, 2257357, 2253776, 2250196, 2248405, 2246615,
   2243035, 2235874, 2228713, 2221551, 2214397, 2207249, 2200101, 2192953, 2189379, 2185805,
   2182231, 2178657, 2171509, 2164361, 2157213, 2150074, 2142944, 2135815, 2128685, 2125120,
   2121556, 2117991, 2114426, 2107296, 2100167, 2093037, 2085919, 2078813, 2071707, 2064601,
   2061048, 2057495, 2053942, 2050389, 2043283, 2036177, 2029071, 2021980, 2014902, 2007825,
   2000748, 1997209, 1993671, 1991901, 1990132, 1986594, 1979517, 1972439, 1965362, 1958302,
   1951259, 1944216, 1937172, 1933650, 1930129, 1928368, 1926607, 1923086, 1916043, 1909000,
   1901957, 1894933, 1887929, 1880925, 1873921, 1870419, 1868668, 1866917, 1863415, 1859913,
   1852909, 1845905, 1838901, 1831919, 1824960, 1818000, 1811040, 1807560, 1804080, 1800600,
   1797121, 1790161, 1783201, 1776242, 1769307, 1762397, 1755486, 1748576, 1745121, 1741666,
   1739938, 1738210, 1734755, 1727845, 1720935, 1714025, 1707142, 1700286, 1693430, 1686574,
   1683146, 1679719, 1678005, 1676291, 1672863, 1666007, 1659151, 1652295, 1645469, 1638673,
   1631877, 1625081, 1621682, 1618284, 1616585, 1614886, 1611488, 1604692, 1597896, 1591099,
   1584335, 1577604, 1570872, 1564140, 1560774, 1557408, 1554042, 1550677, 1543945, 1537213,
   1530481, 1523784, 1517122, 1510460, 1503797, 1500466, 1497135, 1493804, 1490473, 1483810,
   1477148, 1470486, 1463861, 1457273, 1450685, 1444097, 1440803, 1437509, 1434215, 1430921,
   1424333, 1417745, 1411157, 1404608, 1398099, 1391590, 1385082, 1381827, 1378573, 1376945,
   1375318, 1372064, 1365555, 1359046, 1352537, 1346071, 1339646, 1333221, 1326796, 1323583,
   1320371, 1318764, 1317158, 1313946, 1307521, 1301096, 1294671, 1288291, 1281954, 1275618,
   1269282, 1266114, 1262946, 1261361, 1259777, 1256609, 1250273, 1243937, 1237600, 1231311,
   1225068, 1218825, 1212582, 1209460, 1206339, 1204778, 1203217, 1200096, 1193853, 1187610,
   1181367, 1175173, 1169028, 1162883, 1156737, 1153664, 1150592, 1149055, 1147519, 1144447,
   1138302, 1132157, 1126012, 1119918, 1113875, 1107832, 1101790, 1098768, 1095747, 1094236,
   1092725, 1089704, 1083661, 1077619, 1071576, 1065587, 1059651, 1053715, 1047779, 1044811,
   1041843, 1038875, 1035907, 1029971, 1024035, 1018099, 1012219, 1006394, 1000569, 994744,
   991831, 988919, 986007, 983095, 977270, 971445, 965620, 959853, 954144, 948434, 942725, 939870,
   937016, 935588, 934161, 931306, 925597, 919888, 914178, 908529, 902939, 897349, 891759, 888964,
   886170, 883375, 880580, 874990, 869400, 863811, 858283, 852817, 847351, 841885, 839152, 837785,
   836419, 833686, 830953, 825487, 820020, 814554, 809152, 803814, 798476, 793137, 790468, 787799,
   785130, 782461, 777122, 771784, 766446, 761173, 755967, 750760, 745553, 742949, 740346, 737743,
   736441, 735140, 729933, 724726, 719520, 714381, 709310, 704238, 699167, 696631, 694096, 692828,
   691560, 689025, 683953, 678882, 673811, 668809, 663877, 658945, 654013, 651547, 649081, 646615,
   644149, 639217, 634285, 629353, 624492, 619703, 614914, 610124, 607729, 605335, 604137, 602940,
   600546, 595756, 590967, 586178, 581462, 576819, 572176, 567533, 565211, 562890, 561729, 560568,
   558247, 553604, 548961, 544318, 539750, 535256, 530763, 526270, 524023, 521777, 520653, 519530,
   517283, 512790, 508297, 503803, 499387, 495046, 490706, 486366, 484195, 482025, 479855, 478770,
   477685, 473345, 469005, 464664, 460402, 456218, 452034, 447850, 445757, 443665, 442619, 441573,
   439481, 435297, 431113, 426929, 422824, 418800, 414775, 410750, 408737, 406725, 405718, 404712,
   402700, 398675, 394650, 390625, 386681, 382819, 378956, 375093, 373161, 371230, 370264, 369299,
   368816, 368333, 367368, 363505, 359642, 355780, 351999, 348302, 344604, 340906, 339057, 337208,
   336283, 335359, 334435, 333511, 329813, 326115, 322418, 318804, 315274, 311744, 308214, 306449,
   304684, 303801, 302919, 302477, 302036, 301154, 297623, 294093, 290563, 287119, 283759, 280399,
   277039, 275359, 273680, 272000, 270320, 266960, 263600, 260240, 256967, 253780, 250593, 247406,
   245812, 244219, 243422, 242625, 241828, 241032, 237845, 234658, 231471, 228371, 225359, 222347,
   219335, 217829, 216323, 214817, 213311, 210299, 207287, 204275, 201352, 198517, 195682, 192847,
   191430, 190013, 189304, 188595, 187886, 187178, 184343, 181508, 178673, 175928, 173272, 170617,
   167961, 166633, 165306, 163978, 162650, 159995, 157339, 154683, 152118, 149644, 147169, 144695,
   143457, 142220, 140983, 139746, 138508, 137271, 134797, 132322, 129939, 127648, 125356, 123064,
   121918, 120773, 119627, 118481, 116189, 113898, 111606, 109406, 107299, 105192, 103084, 102030,
   100977, 99923, 98869, 97815, 96762, 94655, 92547, 90533, 88611, 86689, 84767, 83806, 82845,
   81884, 80924, 80443, 79963, 79002, 77080, 75158, 73330, 71594, 69859, 68124, 67256, 66822,
   66388, 65520, 64653, 64219, 63785, 62918, 61182, 59447, 57805, 56257, 54708, 53160, 52385,
   51998, 51611, 51224, 50837, 50450, 50063, 49869, 49675, 49288, 48514, 46966, 45417, 43962,
   42600, 41237, 40556, 39875, 39193, 38852, 38512, 38171, 37831, 37150, 36469, 36128, 35788,
   34425, 33063, 31791, 30611, 29431, 28841, 28251, 27956, 27661, 27366, 27071, 26776, 26481,
   26186, 25891, 25301, 24711, 23531, 22350, 21254, 20240, 19226, 18719, 18213, 17959, 17706,
   17579, 17452, 17325, 17199, 17072, 16945, 16818, 16692, 16565, 16438, 16185, 15678, 15172,
   14918, 14665, 14158, 13144, 11991, 11344, 10698, 10374, 10051, 9728, 9566, 9405, 9324, 9243,
   9162, 9081, 9000, 8959, 8919, 8878, 8838, 8798, 8758, 8717, 8677, 8636, 8596, 8575, 8555, 8535,
   8515, 8495, 8475, 8455, 8435, 8414, 8394, 8374, 8354, 8333, 8313, 8293, 8273, 8252, 8232, 8212,
   8192, 8172, 8152, 8112, 8071, 8031, 7990, 7950, 7909, 7869, 7828, 7788, 7747, 7707, 7626, 7545,
   7465, 7384, 7303, 7142, 6980, 6819, 6495, 6172, 5526, 4233, 2940, 1647, 1000, 0]

def pts46 : List ℕ :=
  [5448023, 5447023, 5445148, 5442525, 5438155, 5432042, 5428065, 5427096, 5426126, 5425157,
   5424672, 5424188, 5423945, 5423703, 5423219, 5422250, 5421281, 5420311, 5419246, 5418084,
   5416923, 5415761, 5415180, 5414599, 5414018, 5413438, 5412276, 5411114, 5409953, 5408695,
   5407342, 5405989, 5404635, 5403958, 5403282, 5402943, 5402605, 5401928, 5400575, 5399222,
   5397868, 5396420, 5394875, 5393331, 5391787, 5391015, 5390243, 5389857, 5389471, 5388699,
   5387154, 5385610, 5384066, 5382427, 5380693, 5378959, 5377224, 5376357, 5375490, 5374623,
   5373756, 5372022, 5370288, 5368554, 5366726, 5364803, 5362880, 5360957, 5359995, 5359034,
   5358073, 5357112, 5355189, 5353266, 5351343, 5349326, 5347216, 5345106, 5342995, 5341940,
   5340885, 5339830, 5338775, 5336664, 5334554, 5332444, 5330240, 5327944, 5325647, 5323351,
   5322202, 5321054, 5319906, 5318758, 5316461, 5314165, 5311868, 5309480, 5306998, 5304517,
   5302036, 5300795, 5299555, 5298934, 5298314, 5297074, 5294592, 5292111, 5289630, 5287057,
   5284393, 5281729, 5279065, 5277732, 5276400, 5275068, 5273736, 5271072, 5268407, 5265743,
   5262988, 5260143, 5257297, 5254451, 5253028, 5251606, 5250183, 5248760, 5245914, 5243069,
   5240223, 5237288, 5234262, 5231237, 5228212, 5226699, 5225187, 5224430, 5223674, 5222162,
   5219136, 5216111, 5213086, 5209972, 5206769, 5203566, 5200363, 5198762, 5197161, 5196360,
   5195559, 5193958, 5190755, 5187552, 5184349, 5181059, 5177680, 5174302, 5170923, 5169234,
   5167545, 5165856, 5164167, 5160788, 5157410, 5154032, 5150566, 5147015, 5143463, 5139911,
   5138135, 5136359, 5135471, 5134583, 5132808, 5129256, 5125704, 5122152, 5118515, 5114792,
   5111069, 5107346, 5105484, 5103623, 5101762, 5099901, 5096178, 5092455, 5088732, 5084925,
   5081033, 5077141, 5073250, 5071304, 5069358, 5067412, 5065467, 5061575, 5057683, 5053792,
   5049817, 5045759, 5041701, 5037644, 5035615, 5033586, 5032571, 5031557, 5029528, 5025470,
   5021412, 5017354, 5013215, 5008993, 5004772, 5000551, 4998440, 4996329, 4994218, 4992108,
   4987886, 4983665, 4979443, 4975141, 4970759, 4966377, 4961994, 4959803, 4957612, 4955421,
   4953230, 4948847, 4944465, 4940083, 4935621, 4931081, 4926540, 4922000, 4919729, 4917459,
   4915189, 4912919, 4908378, 4903838, 4899298, 4894679, 4889984, 4885288, 4880593, 4878245,
   4875897, 4873549, 4871201, 4866506, 4861810, 4857114, 4852343, 4847495, 4842647, 4837799,
   4835375, 4832952, 4830528, 4828104, 4823256, 4818408, 4813560, 4808638, 4803641, 4798644,
   4793647, 4791149, 4789900, 4788651, 4788026, 4787401, 4786152, 4783654, 4778657, 4773660,
   4768663, 4763593, 4758451, 4753308, 4748165, 4745594, 4743023, 4741737, 4740451, 4737880,
   4732737, 4727594, 4722452, 4717238, 4711952, 4706667, 4701382, 4698739, 4696097, 4693454,
   4690811, 4685526, 4680241, 4674956, 4669601, 4664176, 4658752, 4653328, 4650615, 4647903,
   4646547, 4645191, 4642479, 4637054, 4631630, 4626206, 4620713, 4615153, 4609593, 4604033,
   4601253, 4598473, 4595693, 4592913, 4587353, 4581793, 4576233, 4570607, 4564914, 4559222,
   4553530, 4550684, 4549261, 4547838, 4544992, 4542146, 4536453, 4530761, 4525069, 4519313,
   4513492, 4507671, 4501851, 4498940, 4496030, 4494574, 4493119, 4490209, 4484389, 4478568,
   4472747, 4466864, 4460919, 4454974, 4449028, 4446055, 4443083, 4441596, 4440110, 4437138,
   4431192, 4425247, 4419302, 4413296, 4407230, 4401163, 4395097, 4392064, 4390547, 4389031,
   4387514, 4385997, 4382964, 4376898, 4370832, 4364766, 4358641, 4352458, 4346274, 4340091,
   4336999, 4333908, 4332362, 4330816, 4327725, 4321541, 4315358, 4309175, 4302935, 4296639,
   4290342, 4284046, 4280898, 4277750, 4274602, 4271454, 4265157, 4258861, 4252565, 4246214,
   4239809, 4233403, 4226998, 4223795, 4220593, 4217390, 4214187, 4207782, 4201377, 4194971,
   4188514, 4182004, 4175493, 4168983, 4165728, 4162473, 4159218, 4155963, 4149453, 4142942,
   4136432, 4129872, 4123261, 4116650, 4110039, 4106733, 4103428, 4101775, 4100122, 4096817,
   4090206, 4083595, 4076985, 4070325, 4063618, 4056911, 4050203, 4046849, 4043496, 4041819,
   4040142, 4036789, 4030081, 4023374, 4016667, 4009913, 4003114, 3996314, 3989515, 3986115,
   3982715, 3981015, 3979315, 3975916, 3969116, 3962317, 3955517, 3948674, 3941786, 3934899,
   3928012, 3924568, 3922846, 3921124, 3919402, 3917680, 3914237, 3907350, 3900463, 3893575,
   3886646, 3879676, 3872705, 3865734, 3862249, 3858764, 3857021, 3855278, 3851793, 3844822,
   3837852, 3830881, 3823871, 3816821, 3809772, 3802722, 3799197, 3795672, 3792147, 3788623,
   3781573, 3774524, 3767474, 3760387, 3753263, 3746139, 3739015, 3735453, 3731891, 3728329,
   3724768, 3717644, 3710520, 3703396, 3696237, 3689043, 3681849, 3674656, 3671059, 3667462,
   3663865, 3660268, 3653074, 3645881, 3638687, 3631460, 3624201, 3616943, 3609684, 3606054,
   3602425, 3600610, 3598795, 3595166, 3587907, 3580648, 3573389, 3566100, 3558780, 3551461,
   3544141, 3540481, 3536822, 3534992, 3533162, 3529502, 3522183, 3514863, 3507544, 3500197,
   3492821, 3485446, 3478071, 3474383, 3470695, 3468851, 3467007, 3463320, 3455945, 3448570,
   3441194, 3433793, 3426367, 3418941, 3411514, 3407801, 3404088, 3402231, 3400374, 3396661,
   3389235, 3381809, 3374382, 3366933, 3359460, 3351987, 3344515, 3340778, 3337042, 3335173,
   3333305, 3329569, 3322096, 3314624, 3307151, 3299658, 3292143, 3284629, 3277115, 3273358,
   3271479, 3269601, 3267722, 3265843, 3262086, 3254572, 3247058, 3239544, 3232011, 3224460,
   3216909, 3209358, 3205582, 3201807, 3199919, 3198031, 3194256, 3186705, 3179154, 3171603,
   3164036, 3156454, 3148871, 3141288, 3137496, 3133705, 3131809, 3129913, 3126122, 3118540,
   3110957, 3103374, 3095778, 3088168, 3080558, 3072948, 3069143, 3065338, 3063435, 3061533,
   3057729, 3050119, 3042509, 3034899, 3027278, 3019646, 3012014, 3004382, 3000566, 2996751,
   2994843, 2992935, 2989119, 2981487, 2973855, 2966223, 2958582, 2950933, 2943284, 2935635,
   2931810, 2927986, 2926073, 2924161, 2920337, 2912688, 2905038, 2897389, 2889734, 2882073,
   2874411, 2866750, 2862919, 2859088, 2857172, 2855257, 2851427, 2843765, 2836104, 2828443,
   2820777, 2813109, 2805440, 2797771, 2793936, 2790102, 2788184, 2786267, 2782433, 2774764,
   2767096, 2759427, 2751757, 2744086, 2736414, 2728743, 2724907, 2721072, 2719154, 2717236,
   2713400, 2705729, 2698058, 2690387, 2682716, 2675048, 2667379, 2659710, 2655875, 2652041,
   2650123, 2648206, 2644372, 2636704, 2629035, 2621366, 2613701, 2606039, 2598378, 2590716,
   2586885, 2583055, 2581139, 2579224, 2575394, 2567732, 2560071, 2552409, 2544754, 2537105,
   2529456, 2521807, 2517982, 2514157, 2512244, 2510332, 2506508, 2498859, 2491210, 2483561,
   2475920, 2468288, 2460657, 2453025, 2449209, 2445393, 2441577, 2437761, 2430129, 2422497,
   2414865, 2407244, 2399634, 2392024, 2384415, 2380610, 2378707, 2376805, 2373000, 2369195,
   2361585, 2353975, 2346366, 2338769, 2331186, 2323604, 2316021, 2312229, 2308438, 2306542,
   2304646, 2300855, 2293272, 2285690, 2278107, 2270540, 2262989, 2255438, 2247887, 2244111,
   2240336, 2238448, 2236560, 2232785, 2225234, 2217683, 2210132, 2202599, 2195085, 2187571,
   2180057, 2176299, 2172542, 2168785, 2165028, 2157514, 2150000, 2142485, 2134992, 2127519,
   2120046, 2112574, 2108837, 2105101, 2103232, 2101364, 2097628, 2090156, 2082683, 2075210,
   2067761, 2060334, 2052908, 2045481, 2041768, 2038055, 2034342, 2030629, 2023202, 2015776,
   2008349, 2000948, 1993573, 1986198, 1978823, 1975135, 1971447, 1967759, 1964072, 1956697,
   1949321, 1941946, 1934599, 1927279, 1919960, 1912640, 1908980, 1905321, 1901661, 1898001,
   1890682, 1883362, 1876043, 1868754, 1861495, 1854236, 1846977, 1843347, 1839718, 1837903,
   1836088, 1832459, 1825200, 1817941, 1810682, 1803456, 1796262, 1789068, 1781874, 1778277,
   1774680, 1771083, 1767487, 1760293, 1753099, 1745905, 1738746, 1731622, 1724499, 1717375,
   1713813, 1712032, 1710251, 1706689, 1703127, 1696003, 1688879, 1681755, 1674668, 1667618,
   1660569, 1653519, 1649994, 1646469, 1644706, 1642944, 1639420, 1632370, 1625321, 1618271,
   1611261, 1604290, 1597319, 1590349, 1586863, 1583378, 1581635, 1579892, 1576407, 1569437,
   1562466, 1555495, 1548566, 1541679, 1534792, 1527904, 1524460, 1521017, 1519295, 1517573,
   1514130, 1507242, 1500355, 1493468, 1486624, 1479825, 1473025, 1466225, 1462825, 1459426,
   1456026, 1452626, 1445827, 1439027, 1432228, 1425474, 1418767, 1412060, 1405352, 1401998,
   1398645, 1395291, 1391937, 1385230, 1378523, 1371815, 1365156, 1358545, 1351934, 1345323,
   1342017, 1338712, 1337059, 1335406, 1332101, 1325491, 1318880, 1312269, 1305708, 1299198,
   1292688, 1286177, 1282922, 1281294, 1279667, 1276412, 1273157, 1266647, 1260137, 1253626,
   1247169, 1240763, 1234358, 1227952, 1224749, 1221547, 1219945, 1218344, 1215142, 1208736,
   1202331, 1195926, 1189575, 1183279, 1176982, 1170686, 1167538, 1164390, 1162815, 1161241,
   1158093, 1151797, 1145500, 1139204, 1132964, 1126781, 1120598, 1114414, 1111322, 1108231,
   1106685, 1105139, 1102048, 1095864, 1089681, 1083498, 1077373, 1071307, 1065240, 1059174,
   1056141, 1053108, 1051591, 1050074, 1047041, 1040975, 1034909, 1028842, 1022837, 1016891,
   1010946, 1005000, 1002027, 999055, 996082, 993109, 987164, 981219, 975273, 969390, 963569,
   957749, 951928, 949017, 946107, 943197, 940287, 934466, 928645, 922824, 917068, 911376, 905683,
   899991, 897145, 894299, 891453, 888607, 882914, 877222, 871530, 865904, 860343, 854783, 849223,
   846443, 843663, 840883, 838103, 832543, 826982, 821422, 815930, 810505, 805081, 799656, 796944,
   794232, 792875, 791519, 788807, 783383, 777958, 772534, 767179, 761894, 756608, 751323, 748680,
   746038, 743395, 740752, 735467, 730182, 724896, 719682, 714539, 709396, 704254, 701682, 699111,
   697825, 696539, 693968, 688825, 683682, 678540, 673470, 668473, 663476, 658479, 655980, 653482,
   652232, 650983, 648485, 643488, 638491, 633494, 628571, 623723, 618875, 614027, 611603, 609180,
   606756, 604332, 599484, 594636, 589788, 585016, 580320, 575624, 570929, 568581, 566233, 563885,
   561537, 556841, 552145, 547450, 542831, 538291, 533750, 529209, 526939, 524669, 523533, 522398,
   520128, 515588, 511047, 506506, 502045, 497662, 493280, 488897, 486706, 484515, 483419, 482323,
   480132, 475749, 471367, 466984, 462682, 458460, 454239, 450017, 447906, 445795, 443684, 441574,
   437352, 433130, 428909, 424769, 420711, 416653, 412595, 410565, 408536, 406507, 404478, 400420,
   396362, 392304, 388329, 384437, 380545, 376653, 374707, 372761, 371788, 370815, 369842, 368870,
   364978, 361086, 357194, 353386, 349663, 345940, 342216, 340354, 338493, 337562, 337096, 336631,
   335700, 334770, 331047, 327323, 323600, 319963, 316410, 312858, 309306, 307530, 305754, 303978,
   302202, 298649, 295097, 291545, 288079, 284701, 281322, 277943, 276253, 274564, 273719, 272874,
   272451, 272029, 271185, 267806, 264427, 261048, 257757, 254554, 251350, 248147, 246545, 244944,
   244143, 243342, 242941, 242541, 241740, 238537, 235333, 232130, 229015, 225989, 222963, 219937,
   218424, 216912, 215399, 213886, 210860, 207834, 204808, 201872, 199025, 196179, 193332, 191909,
   190486, 189774, 189062, 187639, 186215, 184792, 181946, 179099, 176343, 173678, 171013, 168347,
   167014, 165682, 165015, 164349, 163017, 161684, 160351, 157686, 155021, 152447, 149964, 147482,
   144999, 143757, 142516, 141275, 140034, 138792, 137551, 135069, 132586, 130196, 127898, 125599,
   123301, 122152, 121003, 119854, 118705, 117555, 116406, 114108, 111810, 109604, 107492, 105379,
   103266, 102210, 101154, 100097, 99041, 98512, 97984, 96928, 94816, 92703, 90684, 88758, 86832,
   84906, 83943, 82980, 82017, 81054, 80572, 80091, 79128, 77201, 75275, 73443, 71705, 69966,
   68227, 67358, 66923, 66489, 65619, 64750, 63881, 63012, 61273, 59534, 57890, 56339, 54788,
   53237, 52461, 52073, 51686, 51298, 50910, 50522, 50135, 49747, 49359, 48584, 47033, 45482,
   44024, 42660, 41296, 40613, 39931, 39249, 38908, 38567, 38226, 37885, 37203, 36861, 36520,
   35838, 34474, 33110, 31837, 30656, 29474, 28883, 28293, 27997, 27702, 27406, 27111, 26815,
   26520, 26225, 25930, 25634, 25339, 25191, 25043, 24748, 23567, 22385, 21287, 20273, 19258,
   18751, 18244, 17990, 17736, 17609, 17482, 17355, 17229, 17102, 16975, 16848, 16722, 16595,
   16468, 16215, 15707, 15200, 14693, 14186, 13171, 12016, 11368, 10720, 10396, 10072, 9910, 9748,
   9586, 9424, 9343, 9262, 9181, 9100, 9059, 9019, 8978, 8938, 8897, 8857, 8816, 8776, 8755, 8735,
   8715, 8695, 8674, 8654, 8634, 8614, 8593, 8573, 8553, 8533, 8512, 8492, 8472, 8462, 8452, 8441,
   8431, 8421, 8411, 8401, 8391, 8381, 8371, 8360, 8350, 8340, 8330, 8320, 8310, 8300, 8290, 8279,
   8269, 8249, 8229, 8209, 8188, 8168, 8148, 8128, 8107, 8087, 8067, 8047, 8026, 8006, 7986, 7966,
   7945, 7925, 7885, 7844, 7804, 7763, 7723, 7682, 7642, 7561, 7480, 7399, 7318, 7156, 6994, 6832,
   6508, 6184, 5536, 4240, 2944, 1648, 1000, 0]

def pts47 : List ℕ :=
  [6276121, 6275121, 6273245, 6270619, 6266243, 6260120, 6252254, 6247303, 6246139, 6244976,
   6243812, 6242648, 6241484, 6240321, 6239157, 6237993, 6236733, 6235377, 6234021, 6232665,
   6231987, 6231309, 6230631, 6229953, 6228597, 6227241, 6225885, 6224433, 6222885, 6221338,
   6219790, 6219016, 6218242, 6217855, 6217468, 6216695, 6215147, 6213600, 6212052, 6210409,
   6208671, 6206932, 6205194, 6204325, 6203456, 6203021, 6202586, 6201717, 6199979, 6198241,
   6196502, 6194669, 6192741, 6190813, 6188885, 6187921, 6186957, 6185993, 6185029, 6183101,
   6181173, 6179245, 6177222, 6175106, 6172989, 6170872, 6169814, 6168756, 6168226, 6167697,
   6166639, 6164522, 6162406, 6160289, 6158078, 6155774, 6153470, 6151166, 6150014, 6148862,
   6147710, 6146558, 6144253, 6141949, 6139645, 6137248, 6134757, 6132267, 6129777, 6128531,
   6127286, 6126041, 6124796, 6122306, 6119815, 6117325, 6114742, 6112067, 6109392, 6106717,
   6105379, 6104042, 6103373, 6102704, 6101366, 6098691, 6096016, 6093341, 6090574, 6087716,
   6084857, 6081999, 6080569, 6079140, 6077711, 6076282, 6073424, 6070565, 6067707, 6064757,
   6061717, 6058677, 6055637, 6054117, 6053357, 6052597, 6051077, 6049557, 6046516, 6043476,
   6040436, 6037306, 6034086, 6030866, 6027646, 6026035, 6024425, 6023620, 6022815, 6021205,
   6017985, 6014765, 6011545, 6008235, 6004837, 6001439, 5998040, 5996341, 5995491, 5994642,
   5992943, 5991244, 5987845, 5984447, 5981048, 5977562, 5973987, 5970412, 5966838, 5965050,
   5963263, 5962369, 5961475, 5959688, 5956114, 5952539, 5948964, 5945302, 5941553, 5937804,
   5934055, 5932180, 5930306, 5929368, 5928431, 5926557, 5922808, 5919059, 5915310, 5911475,
   5907554, 5903633, 5899711, 5897750, 5895790, 5894809, 5893829, 5891869, 5887948, 5884026,
   5880105, 5876099, 5872008, 5867916, 5863825, 5861779, 5859734, 5857688, 5855642, 5851551,
   5847460, 5843368, 5839193, 5834934, 5830675, 5826416, 5824286, 5822157, 5821092, 5820027,
   5817898, 5813639, 5809380, 5805121, 5800779, 5796355, 5791930, 5787506, 5785293, 5783081,
   5781975, 5780869, 5778657, 5774232, 5769808, 5765384, 5760878, 5756290, 5751703, 5747116,
   5744822, 5742528, 5740234, 5737941, 5733353, 5728766, 5724179, 5719511, 5714764, 5710016,
   5705268, 5702894, 5700520, 5699333, 5698146, 5695773, 5691025, 5686277, 5681529, 5676703,
   5671797, 5666892, 5661987, 5659534, 5657081, 5655854, 5654628, 5652176, 5647270, 5642365,
   5637460, 5632477, 5627416, 5622356, 5617295, 5614765, 5613500, 5612235, 5609705, 5607175,
   5602114, 5597054, 5591993, 5586857, 5581644, 5576432, 5571219, 5568613, 5567310, 5566658,
   5566007, 5565681, 5565355, 5564703, 5563400, 5560794, 5555582, 5550369, 5545157, 5539869,
   5534508, 5529146, 5523784, 5521103, 5519762, 5518422, 5517751, 5517081, 5515741, 5513061,
   5507699, 5502337, 5496975, 5491540, 5486032, 5480524, 5475016, 5472262, 5469508, 5466754,
   5464000, 5458492, 5452984, 5447476, 5441896, 5436245, 5430594, 5424943, 5422117, 5419292,
   5416466, 5413640, 5407989, 5402338, 5396687, 5390965, 5385174, 5379383, 5373592, 5370696,
   5367801, 5366353, 5364905, 5362009, 5356218, 5350427, 5344636, 5338776, 5332848, 5326920,
   5320992, 5318028, 5315064, 5312100, 5309136, 5303208, 5297280, 5291352, 5285357, 5279295,
   5273234, 5267172, 5264141, 5261111, 5258080, 5255049, 5248988, 5242926, 5236865, 5230738,
   5224547, 5218355, 5212164, 5209068, 5207520, 5205972, 5202876, 5199780, 5193589, 5187397,
   5181205, 5174951, 5168632, 5162314, 5155996, 5152837, 5151257, 5149678, 5148098, 5146518,
   5143359, 5137041, 5130723, 5124404, 5118025, 5111583, 5105142, 5098701, 5095480, 5092259,
   5090648, 5089038, 5085818, 5079376, 5072935, 5066494, 5059992, 5053432, 5046871, 5040310,
   5037029, 5033749, 5032108, 5030468, 5027188, 5020627, 5014066, 5007505, 5000886, 4994210,
   4987533, 4980856, 4977517, 4974179, 4972509, 4970840, 4967502, 4960826, 4954149, 4947472,
   4940739, 4933950, 4927161, 4920373, 4916978, 4913584, 4911886, 4910189, 4906795, 4900006,
   4893217, 4886428, 4879585, 4872688, 4865790, 4858893, 4855444, 4851996, 4850271, 4848547,
   4845098, 4838201, 4831304, 4824407, 4817457, 4810455, 4803453, 4796452, 4792951, 4789450,
   4785949, 4782448, 4775446, 4768445, 4761443, 4754391, 4747288, 4740186, 4733084, 4729532,
   4725981, 4722430, 4718879, 4711776, 4704674, 4697572, 4690421, 4683222, 4676023, 4668824,
   4665224, 4661625, 4659825, 4658025, 4654426, 4647227, 4640028, 4632829, 4625583, 4618292,
   4611000, 4603708, 4600062, 4596417, 4594594, 4592771, 4589125, 4581834, 4574542, 4567250,
   4559914, 4552534, 4545154, 4537774, 4534084, 4530394, 4528548, 4526703, 4523013, 4515633,
   4508253, 4500873, 4493450, 4485986, 4478521, 4471056, 4467324, 4463592, 4461725, 4459859,
   4456127, 4448662, 4441198, 4433733, 4426228, 4418684, 4411139, 4403594, 4399821, 4396049,
   4394162, 4392276, 4388504, 4380959, 4373414, 4365869, 4358286, 4350665, 4343044, 4335423,
   4331612, 4327802, 4325896, 4323991, 4320181, 4312560, 4304939, 4297318, 4289662, 4281969,
   4274276, 4266583, 4262737, 4260814, 4259852, 4258891, 4257929, 4256967, 4255044, 4251198,
   4243505, 4235812, 4228119, 4220393, 4212633, 4204872, 4197112, 4193232, 4189352, 4187411,
   4185471, 4181591, 4173831, 4166071, 4158310, 4150519, 4142695, 4134872, 4127048, 4123136,
   4119225, 4115313, 4111401, 4103578, 4095754, 4087931, 4080078, 4072196, 4064313, 4056431,
   4052490, 4048549, 4046578, 4044607, 4040666, 4032784, 4024902, 4017019, 4009110, 4001173,
   3993236, 3985300, 3981331, 3977363, 3975378, 3973394, 3969426, 3961489, 3953553, 3945616,
   3937654, 3929667, 3921681, 3913694, 3909700, 3905707, 3901714, 3897721, 3889734, 3881747,
   3873760, 3865751, 3857719, 3849686, 3841654, 3837638, 3833622, 3831613, 3829605, 3825589,
   3817557, 3809525, 3801493, 3793440, 3785367, 3777293, 3769220, 3765183, 3761147, 3757110,
   3753073, 3745000, 3736927, 3728853, 3720762, 3712652, 3704542, 3696432, 3692377, 3688322,
   3686294, 3684267, 3680212, 3672102, 3663992, 3655882, 3647757, 3639615, 3631473, 3623331,
   3619260, 3617224, 3615189, 3611118, 3607047, 3598905, 3590763, 3582621, 3574466, 3566296,
   3558127, 3549957, 3545872, 3541788, 3539745, 3537703, 3533619, 3525449, 3517280, 3509110,
   3500929, 3492737, 3484545, 3476352, 3472256, 3468160, 3464064, 3459968, 3451775, 3443583,
   3435391, 3427189, 3418978, 3410768, 3402557, 3398451, 3394346, 3390241, 3386136, 3377925,
   3369714, 3361504, 3353286, 3345061, 3336837, 3328613, 3324500, 3320388, 3316276, 3312164,
   3303939, 3295715, 3287490, 3279261, 3271027, 3262794, 3254560, 3250443, 3246326, 3242209,
   3238093, 3229859, 3221625, 3213392, 3205156, 3196917, 3188679, 3180441, 3176322, 3174262,
   3172203, 3170143, 3168083, 3163964, 3155726, 3147488, 3139250, 3131011, 3122773, 3114535,
   3106297, 3102177, 3098058, 3093939, 3089820, 3081582, 3073343, 3065105, 3056869, 3048636,
   3040402, 3032168, 3028051, 3023935, 3019818, 3015701, 3007467, 2999234, 2991000, 2982771,
   2974546, 2966322, 2958097, 2953985, 2949873, 2947816, 2945760, 2941648, 2933424, 2925199,
   2916975, 2908757, 2900547, 2892336, 2884125, 2880020, 2875915, 2873862, 2871809, 2867704,
   2859493, 2851282, 2843072, 2834870, 2826678, 2818486, 2810293, 2806197, 2802101, 2800052,
   2798004, 2793908, 2785716, 2777524, 2769331, 2761151, 2752981, 2744812, 2736642, 2732557,
   2728473, 2726430, 2724388, 2720304, 2712134, 2703965, 2695795, 2687640, 2679498, 2671356,
   2663214, 2659143, 2655072, 2651001, 2646930, 2638788, 2630646, 2622504, 2614378, 2606268,
   2598158, 2590049, 2585994, 2583966, 2581939, 2577884, 2573829, 2565719, 2557609, 2549499,
   2541407, 2533334, 2525261, 2517187, 2513150, 2509114, 2507095, 2505077, 2501041, 2492967,
   2484894, 2476821, 2468768, 2460736, 2452703, 2444671, 2440655, 2436639, 2432623, 2428607,
   2420574, 2412542, 2404510, 2396500, 2388513, 2380527, 2372540, 2368546, 2364553, 2362556,
   2360559, 2356566, 2348580, 2340593, 2332606, 2324645, 2316708, 2308771, 2300834, 2296866,
   2292898, 2290913, 2288929, 2284961, 2277024, 2269087, 2261151, 2253241, 2245359, 2237476,
   2229594, 2225653, 2221712, 2219741, 2217770, 2213829, 2205947, 2198065, 2190182, 2182330,
   2174506, 2166683, 2158859, 2154947, 2151036, 2149080, 2147124, 2143212, 2135389, 2127565,
   2119742, 2111950, 2104189, 2096429, 2088669, 2084788, 2080908, 2077028, 2073148, 2065388,
   2057627, 2049867, 2042141, 2034448, 2026755, 2019062, 2015215, 2011369, 2007523, 2003677,
   1995984, 1988291, 1980598, 1972941, 1965320, 1957699, 1950078, 1946267, 1942457, 1940551,
   1938646, 1934836, 1927215, 1919594, 1911973, 1904391, 1896846, 1889301, 1881756, 1877983,
   1874211, 1872324, 1870438, 1866666, 1859121, 1851576, 1844031, 1836526, 1829062, 1821597,
   1814132, 1810400, 1806668, 1804801, 1802935, 1799203, 1791738, 1784274, 1776809, 1769387,
   1762006, 1754626, 1747246, 1743556, 1739866, 1736176, 1732486, 1725105, 1717725, 1710345,
   1703009, 1695717, 1688426, 1681134, 1677488, 1673842, 1672019, 1670196, 1666551, 1659259,
   1651967, 1644676, 1637430, 1630231, 1623032, 1615833, 1612233, 1608634, 1606834, 1605034,
   1601435, 1594236, 1587037, 1579838, 1572687, 1565585, 1558482, 1551380, 1547828, 1544277,
   1540726, 1537175, 1530073, 1522970, 1515868, 1508816, 1501814, 1494812, 1487810, 1484309,
   1480808, 1477307, 1473807, 1466805, 1459803, 1452801, 1445852, 1438954, 1432057, 1425160,
   1421711, 1418262, 1414813, 1411365, 1404468, 1397570, 1390673, 1383830, 1377041, 1370252,
   1363463, 1360068, 1356674, 1354976, 1353279, 1349885, 1343096, 1336307, 1329518, 1322785,
   1316109, 1309432, 1302755, 1299416, 1296078, 1294408, 1292739, 1289401, 1282724, 1276048,
   1269371, 1262752, 1256191, 1249630, 1243069, 1239788, 1236508, 1234867, 1233227, 1229947,
   1223386, 1216825, 1210264, 1203763, 1197322, 1190880, 1184439, 1181218, 1177997, 1174776,
   1171556, 1165114, 1158673, 1152232, 1145852, 1139533, 1133215, 1126897, 1123738, 1120579,
   1118999, 1117419, 1114260, 1107942, 1101624, 1095305, 1089050, 1082859, 1076667, 1070475,
   1067379, 1064284, 1061188, 1058092, 1051900, 1045709, 1039517, 1033390, 1027329, 1021267,
   1015206, 1012175, 1009144, 1006113, 1003082, 997021, 990959, 984898, 978903, 972975, 967047,
   961119, 958155, 955191, 953708, 952226, 949262, 943334, 937406, 931478, 925618, 919827, 914036,
   908245, 905349, 903901, 902453, 901005, 899557, 896662, 890871, 885079, 879288, 873567, 867915,
   862264, 856613, 853787, 850962, 848136, 845310, 839659, 834008, 828356, 822777, 817269, 811760,
   806252, 800744, 797990, 795236, 789728, 784220, 778712, 773277, 767915, 762553, 757191, 754510,
   751829, 749148, 747807, 746467, 741105, 735743, 730382, 725094, 719882, 714669, 709456, 704244,
   703592, 702940, 701637, 699031, 693818, 688606, 683393, 678256, 673196, 668135, 663075, 660544,
   658014, 655484, 654219, 652954, 647893, 642833, 637772, 632789, 627884, 622978, 618072, 613167,
   612553, 611940, 610714, 609487, 608261, 603356, 598450, 593545, 588718, 583970, 579222, 574474,
   572100, 569726, 567352, 564979, 560231, 555483, 550735, 546067, 541480, 536892, 532305, 527717,
   525423, 523129, 518542, 513954, 509367, 504861, 500436, 496011, 491587, 489374, 487162, 484950,
   482738, 478313, 473888, 469464, 465122, 460862, 456603, 452344, 450214, 448084, 445954, 443825,
   439566, 435307, 431047, 426872, 422780, 418689, 414597, 410506, 408460, 406414, 402323, 398231,
   394139, 390133, 386211, 382290, 378368, 374447, 372486, 370525, 366603, 362682, 358760, 354925,
   351176, 347426, 343677, 341802, 339927, 338052, 336178, 332429, 328679, 324930, 321268, 317693,
   314117, 310542, 306967, 306073, 305179, 304285, 303392, 299817, 296242, 292667, 289180, 285781,
   282382, 278983, 275584, 274734, 273884, 273459, 273034, 272185, 268786, 265388, 261989, 258679,
   255458, 252237, 249017, 245796, 244990, 244185, 243380, 242575, 239354, 236134, 232913, 229782,
   226741, 223700, 220659, 217619, 216858, 216098, 215718, 215338, 214578, 211537, 208496, 205455,
   202505, 199646, 196786, 193927, 191068, 189638, 188208, 185349, 182490, 179631, 176863, 174187,
   171510, 168834, 167496, 166158, 164820, 163482, 162143, 160805, 158129, 155453, 152869, 150377,
   147886, 145394, 144148, 142902, 141656, 141033, 140410, 137919, 135427, 132935, 130536, 128231,
   125925, 123619, 122466, 121313, 120736, 120160, 119007, 117854, 116701, 114395, 112089, 109877,
   107758, 105639, 103520, 102460, 101400, 100340, 99281, 98751, 98221, 97162, 95043, 92924,
   90899, 88968, 87037, 85106, 84140, 83174, 82208, 81243, 80760, 80277, 79312, 77381, 75450,
   73613, 71870, 70127, 68384, 67512, 66641, 65769, 64898, 64027, 63156, 61413, 59670, 58021,
   56467, 54913, 53358, 52581, 52192, 51804, 51027, 50250, 49861, 49472, 48695, 47141, 45586,
   44126, 42759, 41392, 40708, 40025, 39341, 38999, 38658, 38316, 37974, 37291, 36949, 36607,
   35924, 34557, 33190, 31915, 30732, 29548, 28956, 28365, 28069, 27773, 27477, 27181, 26885,
   26589, 25998, 25702, 25554, 25406, 25110, 24814, 23631, 22447, 21348, 20332, 19316, 18808,
   18300, 18046, 17792, 17665, 17538, 17411, 17285, 17158, 17031, 16904, 16777, 16650, 16523,
   16269, 15761, 15253, 14999, 14745, 14237, 13221, 12063, 11412, 10761, 10435, 10110, 9947, 9785,
   9622, 9460, 9378, 9297, 9215, 9134, 9093, 9052, 9011, 8971, 8930, 8890, 8869, 8849, 8829, 8809,
   8788, 8768, 8747, 8727, 8716, 8706, 8696, 8686, 8676, 8666, 8656, 8646, 8635, 8625, 8615, 8605,
   8594, 8584, 8574, 8564, 8558, 8553, 8543, 8533, 8528, 8523, 8518, 8513, 8508, 8503, 8498, 8493,
   8488, 8483, 8477, 8472, 8467, 8462, 8457, 8452, 8447, 8442, 8436, 8431, 8426, 8421, 8416, 8411,
   8406, 8401, 8395, 8390, 8385, 8380, 8375, 8370, 8365, 8360, 8355, 8350, 8345, 8340, 8335, 8330,
   8325, 8320, 8314, 8309, 8304, 8299, 8294, 8289, 8284, 8279, 8274, 8269, 8264, 8259, 8249, 8239,
   8233, 8228, 8218, 8208, 8198, 8188, 8178, 8168, 8158, 8147, 8137, 8127, 8117, 8106, 8096, 8086,
   8076, 8055, 8035, 8015, 7995, 7974, 7954, 7933, 7913, 7892, 7872, 7832, 7791, 7750, 7709, 7669,
   7628, 7588, 7507, 7425, 7344, 7263, 7182, 7019, 6857, 6531, 6206, 5555, 4254, 2952, 1651, 1000,
   0]

def pts48 : List ℕ :=
  [7149861, 7148861, 7146986, 7144361, 7139988, 7133868, 7126005, 7121057, 7119893, 7118730,
   7117566, 7116403, 7115239, 7114076, 7112912, 7111749, 7110489, 7109133, 7107777, 7106421,
   7105743, 7105404, 7105065, 7104387, 7103709, 7102354, 7100998, 7099642, 7098190, 7096642,
   7095094, 7093547, 7092773, 7092386, 7091999, 7091225, 7090451, 7088903, 7087356, 7085808,
   7084165, 7082426, 7080687, 7078948, 7078078, 7077209, 7076340, 7075471, 7073732, 7071993,
   7070254, 7068420, 7066491, 7064562, 7062633, 7061668, 7060704, 7060221, 7059739, 7058775,
   7056846, 7054917, 7052988, 7050965, 7048847, 7046728, 7044610, 7043551, 7042492, 7041433,
   7040374, 7038255, 7036137, 7034019, 7031806, 7029500, 7027193, 7024887, 7023734, 7023157,
   7022581, 7022004, 7021427, 7020274, 7017968, 7015661, 7013355, 7010955, 7008461, 7005968,
   7003474, 7002227, 7000980, 6999733, 6998487, 6995993, 6993500, 6991006, 6988420, 6985740,
   6983061, 6980382, 6979042, 6977702, 6976362, 6975023, 6972343, 6969664, 6966984, 6964213,
   6961349, 6958485, 6955621, 6954189, 6953473, 6952757, 6951325, 6949893, 6947029, 6944165,
   6941301, 6938345, 6935298, 6932251, 6929204, 6927680, 6926157, 6925395, 6924633, 6923110,
   6920063, 6917015, 6913968, 6910830, 6907602, 6904373, 6901144, 6899529, 6897915, 6897107,
   6896300, 6894686, 6891458, 6888229, 6885000, 6881681, 6878272, 6874863, 6871454, 6869750,
   6868046, 6867193, 6866341, 6864637, 6861228, 6857819, 6854410, 6850912, 6847325, 6843737,
   6840150, 6838356, 6836563, 6835666, 6834769, 6832976, 6829388, 6825801, 6822214, 6818538,
   6814774, 6811010, 6807246, 6805364, 6803482, 6801600, 6799718, 6795954, 6792190, 6788426,
   6784575, 6780636, 6776698, 6772759, 6770789, 6768820, 6767835, 6766850, 6764881, 6760942,
   6757004, 6753065, 6749040, 6744928, 6740816, 6736705, 6734649, 6733621, 6732593, 6730537,
   6728481, 6724370, 6720258, 6716146, 6711949, 6707667, 6703384, 6699102, 6696960, 6694819,
   6693748, 6692678, 6690537, 6686254, 6681972, 6677689, 6673322, 6668871, 6664420, 6659968,
   6657742, 6655517, 6654404, 6653291, 6651066, 6646614, 6642163, 6637712, 6633177, 6628559,
   6623941, 6619323, 6617014, 6614705, 6612396, 6610087, 6605470, 6600852, 6596234, 6591534,
   6586751, 6581969, 6577187, 6574796, 6573600, 6572405, 6571209, 6570013, 6567622, 6562840,
   6558058, 6553276, 6548412, 6543468, 6538524, 6533580, 6531107, 6528635, 6527399, 6526163,
   6523691, 6518747, 6513802, 6508858, 6503834, 6498730, 6493627, 6488523, 6485971, 6483419,
   6480867, 6478315, 6473211, 6468107, 6463003, 6457821, 6452560, 6447299, 6442038, 6439407,
   6436777, 6435461, 6434146, 6431516, 6426256, 6420995, 6415734, 6410396, 6404980, 6399565,
   6394149, 6391441, 6388734, 6387380, 6386026, 6383318, 6377903, 6372488, 6367072, 6361581,
   6356013, 6350446, 6344879, 6342095, 6339312, 6336528, 6333744, 6328177, 6322610, 6317042,
   6311401, 6305684, 6299968, 6294251, 6291393, 6288535, 6285677, 6282819, 6277102, 6271386,
   6265669, 6259880, 6254017, 6248154, 6242291, 6239360, 6236429, 6234963, 6233497, 6230566,
   6224703, 6218840, 6212978, 6207043, 6201037, 6195031, 6189025, 6186021, 6183018, 6180015,
   6177012, 6171006, 6165000, 6158993, 6152917, 6146770, 6140623, 6134477, 6131403, 6128330,
   6126793, 6125256, 6122183, 6116036, 6109890, 6103743, 6097527, 6091243, 6084959, 6078675,
   6075532, 6072390, 6070819, 6069248, 6066106, 6059822, 6053538, 6047253, 6040902, 6034483,
   6028065, 6021646, 6018436, 6015227, 6013622, 6012017, 6008808, 6002390, 5995971, 5989552,
   5983068, 5976518, 5969968, 5963418, 5960143, 5956868, 5955230, 5953593, 5950318, 5943768,
   5937218, 5930668, 5924054, 5917376, 5910698, 5904020, 5900681, 5897342, 5895672, 5894002,
   5890663, 5883985, 5877307, 5870629, 5863889, 5857086, 5850283, 5843480, 5840078, 5836677,
   5834976, 5833275, 5829874, 5823071, 5816268, 5809465, 5802602, 5795677, 5788753, 5781828,
   5778366, 5774904, 5771442, 5767980, 5761055, 5754131, 5747206, 5740223, 5733180, 5726138,
   5719095, 5715574, 5712053, 5710292, 5708531, 5705010, 5697968, 5690925, 5683883, 5676783,
   5669626, 5662469, 5655311, 5651732, 5648154, 5646364, 5644575, 5640997, 5633840, 5626683,
   5619525, 5612313, 5605044, 5597776, 5590508, 5586873, 5583239, 5579605, 5575971, 5568703,
   5561434, 5554166, 5546844, 5539468, 5532092, 5524716, 5521028, 5517340, 5513652, 5509964,
   5502588, 5495212, 5487836, 5480408, 5472929, 5465449, 5457969, 5454229, 5452359, 5450489,
   5446749, 5443009, 5435529, 5428049, 5420569, 5413039, 5405459, 5397878, 5390298, 5386508,
   5382718, 5378928, 5375138, 5367557, 5359977, 5352397, 5344768, 5337092, 5329415, 5321738,
   5317899, 5314061, 5312141, 5310222, 5306384, 5298707, 5291030, 5283353, 5275630, 5267860,
   5260091, 5252321, 5248436, 5244551, 5242608, 5240666, 5236782, 5229012, 5221242, 5213472,
   5205658, 5197799, 5189941, 5182082, 5178152, 5174223, 5172258, 5170293, 5166364, 5158505,
   5150647, 5142788, 5134886, 5126942, 5118998, 5111054, 5107082, 5105096, 5103110, 5099138,
   5095166, 5087222, 5079278, 5071334, 5063350, 5055325, 5047299, 5039274, 5035261, 5031249,
   5027236, 5023223, 5015198, 5007173, 4999147, 4991083, 4982981, 4974878, 4966775, 4962723,
   4958672, 4954621, 4950570, 4942467, 4934364, 4926262, 4918122, 4909946, 4901770, 4893594,
   4889506, 4887462, 4886440, 4885418, 4884906, 4884395, 4883373, 4881329, 4877241, 4869065,
   4860889, 4852713, 4844502, 4836257, 4828011, 4819765, 4815642, 4811520, 4809458, 4807397,
   4803274, 4795029, 4786783, 4778538, 4770259, 4761948, 4753637, 4745326, 4741171, 4739093,
   4737016, 4734938, 4732860, 4728705, 4720394, 4712083, 4703772, 4695430, 4687058, 4678686,
   4670313, 4666127, 4664034, 4661941, 4657755, 4653569, 4645196, 4636824, 4628452, 4620051,
   4611621, 4603192, 4594762, 4590547, 4586333, 4582118, 4577903, 4569474, 4561044, 4552615,
   4544159, 4535676, 4527194, 4518711, 4514469, 4510228, 4505987, 4501746, 4493263, 4484781,
   4476298, 4467791, 4459259, 4450728, 4442196, 4437930, 4433665, 4429399, 4425133, 4416602,
   4408070, 4399538, 4390984, 4382408, 4373832, 4365255, 4360967, 4356679, 4354535, 4352391,
   4348103, 4339527, 4330950, 4322374, 4313777, 4305160, 4296543, 4287927, 4283618, 4279310,
   4277155, 4275001, 4270693, 4262076, 4253459, 4244842, 4236207, 4227554, 4218900, 4210247,
   4205920, 4201594, 4199430, 4197267, 4192941, 4184287, 4175634, 4166981, 4158312, 4149626,
   4140941, 4132255, 4127912, 4123570, 4121398, 4119227, 4114885, 4106199, 4097514, 4088828,
   4080129, 4071416, 4062703, 4053989, 4049632, 4045276, 4043097, 4040919, 4036563, 4027850,
   4019136, 4010423, 4001698, 3992961, 3984224, 3975487, 3971119, 3966751, 3964566, 3962382,
   3958014, 3949277, 3940540, 3931803, 3923057, 3914300, 3905544, 3896788, 3892410, 3888032,
   3883654, 3879276, 3870520, 3861763, 3853007, 3844243, 3835472, 3826701, 3817930, 3813544,
   3809159, 3804773, 3800387, 3791616, 3782845, 3774074, 3765297, 3756515, 3747733, 3738951,
   3734560, 3730169, 3725778, 3721387, 3712605, 3703823, 3695041, 3686256, 3677467, 3668679,
   3659891, 3655496, 3651102, 3646708, 3642314, 3633525, 3624737, 3615948, 3607159, 3598368,
   3589578, 3580787, 3576391, 3571996, 3567601, 3563206, 3554415, 3545625, 3536834, 3528045,
   3519256, 3510468, 3501679, 3497285, 3492891, 3490693, 3488496, 3484102, 3475314, 3466526,
   3457737, 3448952, 3440170, 3431388, 3422606, 3418215, 3413824, 3409433, 3405042, 3396260,
   3387478, 3378696, 3369919, 3361148, 3352377, 3343606, 3339220, 3334834, 3330448, 3326063,
   3317292, 3308521, 3299750, 3290986, 3282230, 3273473, 3264717, 3260339, 3255961, 3251583,
   3247205, 3238449, 3229692, 3220936, 3212190, 3203453, 3194716, 3185979, 3181610, 3177242,
   3175057, 3172873, 3168505, 3159769, 3151032, 3142295, 3133570, 3124857, 3116143, 3107430,
   3103073, 3098717, 3094360, 3090003, 3081290, 3072577, 3063864, 3055164, 3046479, 3037794,
   3029108, 3024765, 3020423, 3016080, 3011737, 3003052, 2994367, 2985681, 2977012, 2968359,
   2959705, 2951052, 2946725, 2942399, 2940235, 2938072, 2933746, 2925092, 2916439, 2907786,
   2899151, 2890534, 2881917, 2873300, 2868991, 2864683, 2862528, 2860374, 2856066, 2847449,
   2838832, 2830215, 2821619, 2813043, 2804466, 2795890, 2791602, 2787314, 2785169, 2783025,
   2778737, 2770161, 2761585, 2753008, 2744454, 2735923, 2727391, 2718860, 2714594, 2710328,
   2706062, 2701796, 2693265, 2684733, 2676202, 2667695, 2659212, 2650729, 2642247, 2638005,
   2633764, 2629523, 2625282, 2616799, 2608316, 2599834, 2591378, 2582948, 2574519, 2566089,
   2561874, 2557660, 2553445, 2549230, 2540801, 2532371, 2523941, 2515541, 2507168, 2498796,
   2490424, 2486237, 2482051, 2477865, 2473679, 2465307, 2456935, 2448562, 2440221, 2431910,
   2423599, 2415288, 2411132, 2406977, 2404899, 2402821, 2398666, 2390355, 2382044, 2373733,
   2365455, 2357209, 2348963, 2340718, 2336595, 2332472, 2330410, 2328349, 2324227, 2315981,
   2307735, 2299490, 2291279, 2283103, 2274927, 2266751, 2262662, 2258574, 2256530, 2254486,
   2250398, 2242222, 2234046, 2225870, 2217730, 2209628, 2201525, 2193422, 2189370, 2185319,
   2181268, 2177217, 2169114, 2161011, 2152909, 2144845, 2136819, 2128794, 2120769, 2116756,
   2112743, 2108730, 2104718, 2096693, 2088667, 2080642, 2072657, 2064713, 2056769, 2048825,
   2044853, 2040881, 2036909, 2032937, 2024993, 2017049, 2009105, 2001204, 1993345, 1985486,
   1977627, 1973697, 1969768, 1967803, 1965839, 1961910, 1954051, 1946192, 1938333, 1930519,
   1922749, 1914979, 1907210, 1903325, 1899440, 1895555, 1891670, 1883900, 1876131, 1868361,
   1860638, 1852961, 1845284, 1837607, 1833768, 1829930, 1828010, 1826091, 1822253, 1814576,
   1806899, 1799223, 1791594, 1784014, 1776433, 1768853, 1765063, 1763168, 1761273, 1757483,
   1753693, 1746112, 1738532, 1730952, 1723422, 1715942, 1708462, 1700982, 1697242, 1693502,
   1689762, 1686022, 1678542, 1671062, 1663582, 1656154, 1648778, 1641402, 1634026, 1630338,
   1626650, 1622962, 1619274, 1611898, 1604522, 1597146, 1589824, 1582556, 1575288, 1568019,
   1564385, 1560751, 1558933, 1557116, 1553482, 1546214, 1538946, 1531677, 1524465, 1517307,
   1510150, 1502993, 1499414, 1495836, 1492257, 1488678, 1481521, 1474364, 1467207, 1460107,
   1453064, 1446022, 1438979, 1435458, 1431937, 1430176, 1428415, 1424894, 1417852, 1410809,
   1403767, 1396783, 1389859, 1382934, 1376010, 1372547, 1369085, 1365623, 1362161, 1355236,
   1348312, 1341387, 1334524, 1327721, 1320918, 1314115, 1310713, 1307312, 1305611, 1303910,
   1300509, 1293706, 1286903, 1280100, 1273359, 1266681, 1260003, 1253325, 1249986, 1248316,
   1246647, 1243308, 1239969, 1233291, 1226613, 1219934, 1213320, 1206770, 1200220, 1193670,
   1190395, 1187120, 1183845, 1180570, 1174020, 1167470, 1160920, 1154435, 1148017, 1141598,
   1135179, 1131969, 1128760, 1125551, 1122342, 1115923, 1109504, 1103085, 1096734, 1090450,
   1084165, 1077881, 1074739, 1071597, 1070025, 1068454, 1065312, 1059028, 1052744, 1046459,
   1040244, 1034097, 1027950, 1021803, 1018730, 1015657, 1014120, 1012583, 1009510, 1003363,
   997216, 991069, 984993, 978987, 972980, 966974, 963971, 960968, 959466, 957964, 954961, 948955,
   942949, 936942, 931008, 925145, 919282, 913419, 910488, 907557, 906091, 904625, 901694, 895831,
   889968, 884105, 878316, 872599, 866883, 861166, 858308, 855450, 854020, 852591, 849733, 844017,
   838300, 832584, 826942, 821374, 815807, 810240, 807456, 804672, 801888, 799105, 793537, 787970,
   782403, 776911, 771496, 766080, 760665, 757957, 755249, 752541, 749834, 744418, 739002, 733587,
   728249, 722988, 717727, 712466, 709835, 707204, 704573, 701943, 696682, 691421, 686160, 680978,
   675874, 670770, 665666, 663114, 660562, 658010, 655458, 650354, 645250, 640146, 635122, 630178,
   625233, 620289, 617816, 615344, 614108, 612872, 610400, 605456, 600511, 595567, 590703, 585921,
   581138, 576356, 573965, 571574, 570378, 569182, 566791, 562009, 557226, 552444, 547744, 543126,
   538508, 533889, 531580, 529271, 526962, 524653, 520035, 515417, 510799, 506264, 501813, 497361,
   492910, 490684, 488458, 486232, 484007, 479555, 475104, 470652, 466285, 462002, 457719, 453437,
   451295, 449154, 448083, 447012, 444871, 440588, 436305, 432023, 427825, 423713, 419602, 415490,
   413434, 411378, 409322, 407266, 403154, 399042, 394930, 390904, 386965, 383026, 379087, 377117,
   375148, 374163, 373178, 372193, 371209, 367270, 363331, 359392, 355540, 351776, 348012, 344247,
   342365, 340483, 338601, 336719, 332954, 329190, 325426, 321750, 318162, 314574, 310987, 309193,
   307399, 305605, 304708, 303811, 300223, 296636, 293048, 289549, 286140, 282731, 279321, 277616,
   275912, 275059, 274207, 273355, 272503, 269093, 265684, 262274, 258955, 255726, 252496, 249267,
   247652, 246038, 244423, 242808, 239579, 236349, 233120, 229981, 226934, 223886, 220838, 219314,
   217790, 216266, 214742, 211694, 208646, 205599, 202642, 199777, 196913, 194048, 192615, 191183,
   190466, 189750, 188318, 186885, 185453, 182588, 179723, 176951, 174270, 171590, 168909, 167569,
   166229, 165558, 164888, 164553, 164218, 163548, 160868, 158187, 155507, 152919, 150424, 147929,
   145434, 144186, 142939, 142315, 141691, 141067, 140444, 137950, 135455, 132960, 130558, 128250,
   125942, 123633, 122479, 121325, 120171, 119594, 119017, 116709, 114401, 112092, 109878, 107757,
   105637, 103516, 102456, 101396, 100335, 99275, 98744, 98214, 97154, 95034, 92913, 90887, 88955,
   87023, 85090, 84124, 83158, 82192, 81226, 80260, 79294, 77362, 75430, 73592, 71849, 70105,
   68362, 67490, 67054, 66619, 65747, 64875, 64003, 63132, 61389, 59645, 57996, 56442, 54887,
   53333, 52555, 52166, 51778, 51389, 51001, 50612, 50224, 49447, 48670, 47115, 45561, 44100,
   42733, 41366, 40682, 39999, 39316, 38974, 38633, 38291, 37949, 37266, 36924, 36582, 35899,
   34532, 33165, 31890, 30707, 29524, 28932, 28341, 28045, 27749, 27453, 27157, 27009, 26861,
   26565, 26269, 25974, 25678, 25382, 25234, 25086, 24791, 23608, 22424, 21325, 20309, 19294,
   18786, 18278, 18024, 17770, 17643, 17516, 17389, 17263, 17136, 17009, 16882, 16755, 16628,
   16501, 16247, 15739, 15485, 15231, 14977, 14723, 14216, 13200, 12043, 11393, 10744, 10419,
   10094, 9931, 9769, 9607, 9445, 9363, 9282, 9201, 9160, 9120, 9079, 9038, 8997, 8957, 8936,
   8916, 8896, 8876, 8855, 8835, 8815, 8795, 8774, 8754, 8743, 8733, 8723, 8713, 8702, 8692, 8682,
   8672, 8662, 8652, 8642, 8632, 8626, 8621, 8616, 8611, 8606, 8601, 8596, 8591, 8586, 8581, 8576,
   8571, 8566, 8561, 8556, 8551, 8545, 8540, 8535, 8530, 8525, 8520, 8515, 8510, 8507, 8505, 8502,
   8500, 8497, 8495, 8492, 8490, 8487, 8485, 8482, 8480, 8477, 8475, 8472, 8470, 8467, 8464, 8461,
   8459, 8456, 8454, 8451, 8449, 8446, 8444, 8441, 8439, 8436, 8434, 8431, 8429, 8426, 8423, 8420,
   8418, 8415, 8413, 8410, 8408, 8405, 8403, 8400, 8398, 8395, 8393, 8390, 8388, 8385, 8382, 8379,
   8377, 8374, 8372, 8369, 8367, 8364, 8362, 8359, 8357, 8354, 8352, 8349, 8347, 8344, 8342, 8339,
   8337, 8334, 8332, 8329, 8327, 8324, 8322, 8319, 8317, 8314, 8312, 8309, 8307, 8304, 8301, 8298,
   8296, 8293, 8291, 8288, 8286, 8283, 8281, 8278, 8276, 8273, 8271, 8268, 8266, 8263, 8261, 8256,
   8251, 8246, 8241, 8236, 8231, 8226, 8220, 8215, 8210, 8205, 8200, 8195, 8190, 8185, 8180, 8175,
   8170, 8165, 8160, 8155, 8150, 8145, 8139, 8134, 8124, 8114, 8104, 8093, 8083, 8073, 8063, 8052,
   8042, 8032, 8022, 8002, 7982, 7961, 7941, 7921, 7901, 7880, 7860, 7840, 7820, 7779, 7738, 7697,
   7657, 7616, 7576, 7495, 7413, 7332, 7251, 7170, 7008, 6846, 6521, 6196, 5547, 4248, 2949, 1650,
   1000, 0]

def pts49 : List ℕ :=
  [8198998, 8197998, 8196123, 8193496, 8189119, 8182993, 8175123, 8165510, 8159589, 8158231,
   8156874, 8155516, 8154158, 8152801, 8151443, 8150085, 8148728, 8147274, 8145724, 8144174,
   8142624, 8141849, 8141461, 8141074, 8140299, 8139524, 8137974, 8136424, 8134874, 8133228,
   8131487, 8129745, 8128003, 8127132, 8126262, 8125826, 8125391, 8124520, 8122779, 8121037,
   8119295, 8117458, 8115526, 8113593, 8111661, 8110694, 8109728, 8108762, 8107796, 8105863,
   8103931, 8101998, 8099971, 8097848, 8095726, 8093603, 8092542, 8092011, 8091481, 8090950,
   8090419, 8089358, 8087236, 8085113, 8082990, 8080773, 8078462, 8076150, 8073838, 8072682,
   8071526, 8070370, 8069215, 8066903, 8064591, 8062280, 8059874, 8057374, 8054874, 8052374,
   8051124, 8049874, 8048624, 8047374, 8044875, 8042375, 8039875, 8037281, 8034594, 8031907,
   8029220, 8027876, 8026533, 8025861, 8025189, 8023846, 8021159, 8018472, 8015785, 8013005,
   8010133, 8007260, 8004387, 8002950, 8001514, 8000795, 8000077, 7998641, 7995768, 7992895,
   7990022, 7987057, 7983999, 7980941, 7977884, 7976355, 7974826, 7974061, 7973297, 7971768,
   7968711, 7965653, 7962595, 7959446, 7956205, 7952964, 7949723, 7948102, 7946482, 7945671,
   7944861, 7943241, 7939999, 7936758, 7933517, 7930185, 7926762, 7923339, 7919916, 7918204,
   7916493, 7915637, 7914781, 7913070, 7909646, 7906223, 7902800, 7899287, 7895683, 7892079,
   7888476, 7886674, 7884872, 7883971, 7883070, 7881268, 7877665, 7874061, 7870457, 7866764,
   7862981, 7859199, 7855416, 7853524, 7851633, 7850687, 7849741, 7847850, 7844068, 7840285,
   7836502, 7832631, 7828671, 7824710, 7820750, 7818770, 7817780, 7816790, 7814810, 7812830,
   7808870, 7804910, 7800950, 7796902, 7792766, 7788630, 7784494, 7782426, 7780358, 7778290,
   7776222, 7772086, 7767950, 7763815, 7759592, 7755282, 7750972, 7746662, 7744507, 7742352,
   7740197, 7738043, 7733733, 7729423, 7725113, 7720717, 7716235, 7711753, 7707271, 7705030,
   7702789, 7700548, 7698307, 7693825, 7689344, 7684862, 7680295, 7675642, 7670990, 7666338,
   7664012, 7661686, 7659360, 7657034, 7652382, 7647729, 7643077, 7638341, 7633521, 7628700,
   7623880, 7621469, 7619059, 7616649, 7614239, 7609419, 7604598, 7599778, 7594875, 7589888,
   7584901, 7579915, 7577421, 7574928, 7572435, 7569942, 7564955, 7559969, 7554982, 7549914,
   7544763, 7539613, 7534462, 7531886, 7529311, 7526736, 7524161, 7519010, 7513860, 7508709,
   7503478, 7498165, 7492853, 7487541, 7484884, 7482228, 7479572, 7476916, 7471603, 7466291,
   7460979, 7455586, 7450115, 7444643, 7439171, 7436435, 7435067, 7433699, 7430963, 7428227,
   7422755, 7417283, 7411811, 7406260, 7400631, 7395002, 7389373, 7386558, 7383744, 7382336,
   7380929, 7378115, 7372485, 7366856, 7361227, 7355520, 7349736, 7343952, 7338168, 7335276,
   7332384, 7329492, 7326601, 7320817, 7315033, 7309249, 7303388, 7297452, 7291516, 7285579,
   7282611, 7279643, 7276675, 7273707, 7267770, 7261834, 7255898, 7249887, 7243800, 7237714,
   7231628, 7228585, 7225542, 7224020, 7222499, 7219456, 7213370, 7207284, 7201197, 7195038,
   7188804, 7182571, 7176338, 7173221, 7170104, 7168545, 7166987, 7163871, 7157638, 7151404,
   7145171, 7138865, 7132487, 7126109, 7119732, 7116543, 7113354, 7110165, 7106976, 7100598,
   7094220, 7087842, 7081393, 7074874, 7068354, 7061834, 7058574, 7055314, 7053684, 7052054,
   7048795, 7042275, 7035755, 7029235, 7022646, 7015987, 7009329, 7002670, 6999340, 6996011,
   6994346, 6992681, 6989352, 6982694, 6976035, 6969376, 6962649, 6955854, 6949059, 6942264,
   6938866, 6935469, 6932072, 6928675, 6921880, 6915085, 6908290, 6901428, 6894500, 6887572,
   6880643, 6877179, 6873715, 6870251, 6866787, 6859859, 6852930, 6846002, 6839009, 6831950,
   6824892, 6817833, 6814303, 6810774, 6809009, 6807245, 6803716, 6796657, 6789599, 6782540,
   6775418, 6768232, 6761046, 6753860, 6750267, 6746674, 6743081, 6739488, 6732302, 6725117,
   6717931, 6710683, 6703373, 6696062, 6688752, 6685097, 6681442, 6677787, 6674132, 6666822,
   6659512, 6652202, 6644831, 6637400, 6629968, 6622537, 6618821, 6615106, 6613248, 6611390,
   6607675, 6600243, 6592812, 6585381, 6577891, 6570341, 6562792, 6555243, 6551468, 6547694,
   6545806, 6543919, 6540144, 6532595, 6525046, 6517497, 6509890, 6502226, 6494562, 6486898,
   6483066, 6479234, 6477318, 6475402, 6471571, 6463907, 6456243, 6448579, 6440859, 6433084,
   6425308, 6417533, 6413645, 6411701, 6409757, 6407813, 6405869, 6401982, 6394207, 6386431,
   6378656, 6370826, 6362943, 6355059, 6347176, 6343234, 6339292, 6335350, 6331409, 6323525,
   6315642, 6307758, 6299822, 6291834, 6283846, 6275858, 6271863, 6267869, 6263875, 6259881,
   6251893, 6243904, 6235916, 6227877, 6219788, 6211698, 6203608, 6199563, 6195519, 6191474,
   6187429, 6179339, 6171250, 6163160, 6155022, 6146834, 6138646, 6130459, 6126365, 6122271,
   6118177, 6114084, 6105896, 6097709, 6089521, 6081287, 6073005, 6064723, 6056441, 6052300,
   6050229, 6048159, 6044018, 6039877, 6031595, 6023313, 6015031, 6006704, 5998331, 5989958,
   5981586, 5977399, 5973213, 5971119, 5969026, 5964840, 5956467, 5948094, 5939722, 5931305,
   5922845, 5914385, 5905925, 5901695, 5897465, 5895350, 5893235, 5889005, 5880545, 5872085,
   5863625, 5855123, 5846579, 5838035, 5829492, 5825220, 5820948, 5816676, 5812404, 5803860,
   5795317, 5786773, 5778189, 5769565, 5760942, 5752318, 5748006, 5743694, 5741538, 5739382,
   5735070, 5726447, 5717823, 5709199, 5700537, 5691837, 5683137, 5674437, 5670087, 5665737,
   5661387, 5657037, 5648337, 5639637, 5630936, 5622200, 5613427, 5604655, 5595882, 5591495,
   5587109, 5584915, 5582722, 5578336, 5569564, 5560791, 5552018, 5543211, 5534370, 5525528,
   5516686, 5512265, 5507845, 5503424, 5499003, 5490162, 5481320, 5472479, 5463604, 5454698,
   5445791, 5436884, 5432431, 5427978, 5425751, 5423524, 5419071, 5410164, 5401258, 5392351,
   5383414, 5374446, 5365478, 5356510, 5352026, 5347542, 5343058, 5338574, 5329606, 5320638,
   5311670, 5302673, 5293648, 5284622, 5275597, 5271084, 5266572, 5262059, 5257546, 5248521,
   5239495, 5230470, 5221418, 5212339, 5203260, 5194181, 5189641, 5185102, 5182832, 5180562,
   5176023, 5166943, 5157864, 5148785, 5139682, 5130553, 5121424, 5112295, 5107731, 5103167,
   5100884, 5098602, 5094038, 5084909, 5075780, 5066651, 5057500, 5048325, 5039151, 5029976,
   5025389, 5023095, 5020802, 5018508, 5016214, 5011627, 5002452, 4993278, 4984103, 4974908,
   4965691, 4956475, 4947258, 4942650, 4938042, 4935737, 4933433, 4928825, 4919609, 4910392,
   4901176, 4891940, 4882686, 4873431, 4864177, 4859549, 4854922, 4850295, 4845668, 4836413,
   4827159, 4817905, 4808633, 4799345, 4790056, 4780768, 4776123, 4771479, 4766835, 4762191,
   4752902, 4743614, 4734325, 4725022, 4715703, 4706385, 4697066, 4692407, 4690077, 4687748,
   4685418, 4683088, 4678429, 4669111, 4659792, 4650474, 4641142, 4631797, 4622453, 4613108,
   4608436, 4603764, 4601427, 4599091, 4594419, 4585074, 4575730, 4566385, 4557030, 4547663,
   4538296, 4528930, 4524246, 4519563, 4517221, 4514879, 4510196, 4500830, 4491463, 4482096,
   4472721, 4463336, 4453951, 4444566, 4439874, 4435182, 4432835, 4430489, 4425797, 4416412,
   4407027, 4397643, 4388251, 4378852, 4369453, 4360054, 4355355, 4350656, 4348306, 4345956,
   4341257, 4331858, 4322459, 4313060, 4303656, 4294248, 4284839, 4275430, 4270725, 4266021,
   4263668, 4261316, 4256612, 4247203, 4237794, 4228385, 4218974, 4209559, 4200144, 4190729,
   4186021, 4181314, 4178960, 4176606, 4171899, 4162484, 4153069, 4143654, 4134238, 4124822,
   4115405, 4105988, 4101279, 4096571, 4094216, 4091862, 4087154, 4077737, 4068320, 4058903,
   4049487, 4040072, 4030657, 4021243, 4016535, 4011828, 4009474, 4007120, 4002413, 3992998,
   3983583, 3974168, 3964756, 3955347, 3945938, 3936530, 3931825, 3927121, 3924768, 3922416,
   3917712, 3908303, 3898894, 3889485, 3880081, 3870683, 3861284, 3851885, 3847185, 3842486,
   3840136, 3837786, 3833087, 3823689, 3814290, 3804891, 3795499, 3786114, 3776730, 3767345,
   3762652, 3757960, 3755613, 3753267, 3748575, 3739191, 3729806, 3720421, 3711045, 3701679,
   3692312, 3682945, 3678262, 3673579, 3671237, 3668895, 3664212, 3654845, 3645479, 3636112,
   3626756, 3617412, 3608067, 3598723, 3594050, 3589378, 3587041, 3584705, 3580033, 3570689,
   3561344, 3552000, 3542668, 3533349, 3524031, 3514712, 3510053, 3505394, 3503064, 3500734,
   3496075, 3486757, 3477438, 3468120, 3458816, 3449528, 3440239, 3430951, 3426306, 3421662,
   3417018, 3412374, 3403085, 3393797, 3384508, 3375237, 3365982, 3356728, 3347474, 3342846,
   3338219, 3333592, 3328965, 3319710, 3310456, 3301201, 3291966, 3282749, 3273533, 3264316,
   3259708, 3257404, 3255100, 3253947, 3252795, 3250491, 3245883, 3236667, 3227450, 3218234,
   3209038, 3199864, 3190689, 3181514, 3176927, 3172340, 3170046, 3167752, 3163165, 3153991,
   3144816, 3135642, 3126490, 3117361, 3108232, 3099104, 3094539, 3089975, 3087692, 3085410,
   3080846, 3071717, 3062589, 3053460, 3044356, 3035277, 3026198, 3017119, 3012579, 3008040,
   3005770, 3003500, 2998961, 2989882, 2980803, 2971724, 2962671, 2953646, 2944620, 2935595,
   2931082, 2926570, 2924313, 2922057, 2917544, 2908519, 2899493, 2890468, 2881471, 2872503,
   2863535, 2854567, 2850083, 2845599, 2843357, 2841115, 2836631, 2827663, 2818695, 2809727,
   2800790, 2791883, 2782977, 2774070, 2769616, 2765163, 2760710, 2756257, 2747350, 2738443,
   2729537, 2720662, 2711821, 2702979, 2694138, 2689717, 2687506, 2685296, 2680875, 2676454,
   2667613, 2658771, 2649930, 2641123, 2632350, 2623577, 2614804, 2610418, 2606032, 2603838,
   2601645, 2597259, 2588486, 2579714, 2570941, 2562204, 2553504, 2544804, 2536104, 2531754,
   2527404, 2523054, 2518704, 2510004, 2501304, 2492604, 2483942, 2475318, 2466694, 2458070,
   2453758, 2449447, 2445135, 2440823, 2432199, 2423575, 2414952, 2406368, 2397824, 2389280,
   2380737, 2376465, 2372193, 2370057, 2367921, 2363649, 2355105, 2346562, 2338018, 2329516,
   2321056, 2312596, 2304136, 2299906, 2295676, 2293560, 2291445, 2287215, 2278755, 2270295,
   2261835, 2253419, 2245046, 2236673, 2228300, 2224114, 2219928, 2217834, 2215741, 2211555,
   2203182, 2194809, 2186436, 2178109, 2169827, 2161545, 2153263, 2149122, 2144981, 2140840,
   2136699, 2128417, 2120135, 2111853, 2103619, 2095431, 2087244, 2079056, 2074962, 2070869,
   2066775, 2062681, 2054493, 2046306, 2038118, 2029980, 2021890, 2013800, 2005711, 2001666,
   1997621, 1993576, 1989531, 1981442, 1973352, 1965263, 1957224, 1949235, 1941247, 1933259,
   1929264, 1925270, 1921276, 1917282, 1909294, 1901305, 1893317, 1885381, 1877498, 1869614,
   1861731, 1857789, 1853847, 1849905, 1845963, 1838080, 1830196, 1822313, 1814483, 1806708,
   1798933, 1791157, 1787269, 1783382, 1781438, 1779494, 1775606, 1767831, 1760055, 1752280,
   1744560, 1736896, 1729232, 1721568, 1717736, 1713904, 1710072, 1706241, 1698577, 1690913,
   1683249, 1675642, 1668093, 1660544, 1652994, 1649219, 1645445, 1643557, 1641670, 1637896,
   1630347, 1622797, 1615248, 1607758, 1600327, 1592895, 1585464, 1581748, 1578033, 1574317,
   1570601, 1563170, 1555739, 1548307, 1540937, 1533627, 1526316, 1519006, 1515351, 1513523,
   1511696, 1508041, 1504386, 1497076, 1489766, 1482455, 1475207, 1468021, 1460835, 1453650,
   1450057, 1446464, 1442871, 1439278, 1432092, 1424906, 1417720, 1410598, 1403539, 1396480,
   1389422, 1385892, 1382363, 1378834, 1375305, 1368246, 1361187, 1354129, 1347135, 1340207,
   1333279, 1326350, 1322886, 1319422, 1315958, 1312494, 1305566, 1298637, 1291709, 1284847,
   1278052, 1271257, 1264462, 1261064, 1257667, 1255968, 1254269, 1250872, 1244077, 1237282,
   1230487, 1223760, 1217102, 1210443, 1203784, 1200454, 1197125, 1195460, 1193795, 1190466,
   1183808, 1177149, 1170490, 1163901, 1157381, 1150861, 1144341, 1141081, 1137822, 1134562,
   1131302, 1124782, 1118262, 1111742, 1105294, 1098916, 1092538, 1086160, 1082971, 1079782,
   1076593, 1073404, 1067026, 1060648, 1054270, 1047964, 1041731, 1035497, 1029264, 1026147,
   1023031, 1019914, 1016797, 1010564, 1004330, 998097, 991937, 985851, 979765, 973678, 970635,
   967592, 964549, 961506, 955420, 949334, 943247, 937236, 931300, 925363, 919427, 916458, 913490,
   910522, 907554, 901618, 895681, 889745, 883885, 878101, 872316, 866532, 863640, 860748, 859302,
   857856, 854964, 849180, 843396, 837612, 831905, 826276, 820647, 815018, 812203, 809388, 807980,
   806573, 803759, 798130, 792501, 786871, 781321, 775849, 770377, 764904, 759432, 756696, 753960,
   748488, 743016, 737544, 732152, 726839, 721527, 716214, 710902, 710237, 709573, 708245, 705589,
   700277, 694964, 689652, 684420, 679270, 674119, 668968, 663818, 662530, 661242, 658667, 653516,
   648366, 643215, 638146, 633159, 628173, 623186, 620692, 618199, 615706, 614459, 613213, 608226,
   603239, 598253, 593349, 588529, 583708, 578888, 574067, 573464, 572861, 571656, 569246, 564426,
   559605, 554785, 550048, 545396, 540744, 536091, 533765, 531439, 529113, 527950, 526787, 522134,
   517482, 512830, 508262, 503780, 499298, 494816, 490334, 489773, 489213, 488093, 486972, 485852,
   481370, 476887, 472405, 468009, 463699, 459389, 455079, 450769, 450230, 449691, 448614, 446459,
   442149, 437839, 433529, 429305, 425169, 421033, 416897, 412761, 411727, 410693, 409659, 408625,
   404489, 400352, 396216, 392168, 388208, 384247, 380287, 378306, 376326, 374346, 372366, 368405,
   364445, 360484, 356613, 352830, 349046, 345263, 341480, 340534, 339588, 339115, 338642, 337697,
   333914, 330131, 326348, 322654, 319050, 315446, 311842, 308238, 307337, 306436, 305535, 304634,
   301030, 297426, 293821, 290308, 286884, 283460, 280037, 278325, 276613, 274901, 273190, 269766,
   266342, 262919, 259586, 256344, 253103, 249861, 248240, 246619, 244998, 243378, 240136, 236894,
   233653, 230503, 227444, 224386, 221327, 218269, 216740, 215211, 213681, 212152, 209094, 206036,
   203069, 200196, 197322, 194448, 191574, 190137, 188700, 185827, 182953, 180079, 177298, 174610,
   171922, 169234, 167890, 166546, 165202, 163858, 162514, 161170, 158482, 155794, 153199, 150698,
   148196, 145695, 144444, 143194, 142568, 141943, 140693, 139442, 138191, 135690, 133189, 130782,
   128468, 126155, 123841, 122684, 121528, 120949, 120371, 120081, 119792, 119503, 119214, 116901,
   114587, 112274, 110055, 107930, 105805, 103680, 102617, 101555, 100492, 99430, 98898, 98367,
   97305, 95180, 93056, 91025, 89090, 87154, 85218, 84250, 83283, 82315, 81347, 80379, 79411,
   77476, 75540, 73699, 71953, 70207, 68461, 67588, 66715, 65842, 64969, 64532, 64095, 63222,
   61476, 59730, 58079, 56522, 54965, 53409, 52630, 52241, 51852, 51073, 50295, 49517, 48739,
   47182, 45625, 44163, 42794, 41426, 40741, 40057, 39372, 39030, 38688, 38346, 38004, 37320,
   36977, 36635, 35951, 34583, 33214, 31938, 30753, 29569, 28976, 28384, 28088, 27792, 27496,
   27200, 26903, 26607, 26015, 25719, 25423, 24831, 24238, 23646, 22462, 21361, 20345, 19328,
   18820, 18312, 18058, 17804, 17677, 17550, 17423, 17296, 17168, 17041, 16914, 16787, 16660,
   16533, 16279, 15771, 15517, 15263, 15135, 15008, 14754, 14246, 13230, 12071, 11419, 10768,
   10442, 10117, 9954, 9791, 9628, 9466, 9384, 9303, 9221, 9180, 9140, 9099, 9058, 9017, 8977,
   8936, 8915, 8895, 8874, 8854, 8834, 8814, 8793, 8773, 8762, 8752, 8742, 8732, 8721, 8711, 8701,
   8691, 8681, 8671, 8661, 8651, 8640, 8630, 8620, 8615, 8610, 8604, 8599, 8594, 8589, 8584, 8579,
   8574, 8569, 8563, 8558, 8553, 8548, 8543, 8538, 8533, 8528, 8523, 8518, 8513, 8508, 8503, 8498,
   8493, 8488, 8485, 8482, 8479, 8477, 8474, 8472, 8469, 8467, 8464, 8462, 8459, 8457, 8454, 8452,
   8449, 8447, 8444, 8441, 8438, 8436, 8433, 8431, 8428, 8426, 8423, 8421, 8418, 8416, 8413, 8411,
   8408, 8406, 8403, 8400, 8397, 8395, 8392, 8390, 8387, 8385, 8382, 8380, 8377, 8375, 8372, 8370,
   8367, 8365, 8362, 8360, 8357, 8355, 8352, 8350, 8347, 8345, 8342, 8340, 8337, 8335, 8332, 8330,
   8327, 8325, 8322, 8319, 8314, 8309, 8304, 8299, 8294, 8289, 8284, 8279, 8274, 8269, 8264, 8259,
   8254, 8249, 8244, 8238, 8233, 8228, 8223, 8218, 8213, 8208, 8203, 8198, 8193, 8188, 8183, 8173,
   8163, 8152, 8142, 8132, 8122, 8111, 8101, 8091, 8081, 8070, 8060, 8050, 8040, 8020, 8000, 7979,
   7959, 7938, 7918, 7897, 7877, 7857, 7837, 7796, 7755, 7714, 7674, 7633, 7593, 7512, 7430, 7349,
   7267, 7186, 7023, 6861, 6535, 6209, 5558, 4256, 2954, 1651, 1000, 0]

end Odes.Tables.RockStab
