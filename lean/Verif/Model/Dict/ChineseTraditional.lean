/-
Generated from bip39/src/dicts/bip39_chinese_traditional.txt.
-/
namespace KC.Bip39.DictData

set_option maxRecDepth 100000 in
/-- bip39/src/dicts/bip39_chinese_traditional.txt: the 2048 words in order, each as the number whose base 2^21 digits, least
significant first, are the code points of the word. -/
def chineseTraditionalCodes : List Nat := [
  30340, 19968, 26159, 22312, 19981, 20102, 26377, 21644,
  20154, 36889, 20013, 22823, 28858, 19978, 20491, 22283,
  25105, 20197, 35201, 20182, 26178, 20358, 29992, 20497,
  29983, 21040, 20316, 22320, 26044, 20986, 23601, 20998,
  23565, 25104, 26371, 21487, 20027, 30332, 24180, 21205,
  21516, 24037, 20063, 33021, 19979, 36942, 23376, 35498,
  29986, 31278, 38754, 32780, 26041, 24460, 22810, 23450,
  34892, 23416, 27861, 25152, 27665, 24471, 32147, 21313,
  19977, 20043, 36914, 33879, 31561, 37096, 24230, 23478,
  38651, 21147, 35041, 22914, 27700, 21270, 39640, 33258,
  20108, 29702, 36215, 23567, 29289, 29694, 23526, 21152,
  37327, 37117, 20841, 39636, 21046, 27231, 30070, 20351,
  40670, 24478, 26989, 26412, 21435, 25226, 24615, 22909,
  25033, 38283, 23427, 21512, 36996, 22240, 30001, 20854,
  20123, 28982, 21069, 22806, 22825, 25919, 22235, 26085,
  37027, 31038, 32681, 20107, 24179, 24418, 30456, 20840,
  34920, 38291, 27171, 33287, 38364, 21508, 37325, 26032,
  32218, 20839, 25976, 27491, 24515, 21453, 20320, 26126,
  30475, 21407, 21448, 40636, 21033, 27604, 25110, 20294,
  36074, 27683, 31532, 21521, 36947, 21629, 27492, 35722,
  26781, 21482, 27794, 32080, 35299, 21839, 24847, 24314,
  26376, 20844, 28961, 31995, 36557, 24456, 24773, 32773,
  26368, 31435, 20195, 24819, 24050, 36890, 20006, 25552,
  30452, 38988, 40680, 31243, 23637, 20116, 26524, 26009,
  35937, 21729, 38761, 20301, 20837, 24120, 25991, 32317,
  27425, 21697, 24335, 27963, 35373, 21450, 31649, 29305,
  20214, 38263, 27714, 32769, 38957, 22522, 36039, 37002,
  27969, 36335, 32026, 23569, 22294, 23665, 32113, 25509,
  30693, 36611, 23559, 32068, 35211, 35336, 21029, 22905,
  25163, 35282, 26399, 26681, 35542, 36939, 36786, 25351,
  24190, 20061, 21312, 24375, 25918, 27770, 35199, 34987,
  24185, 20570, 24517, 25136, 20808, 22238, 21063, 20219,
  21462, 25818, 34389, 38538, 21335, 32102, 33394, 20809,
  38272, 21363, 20445, 27835, 21271, 36896, 30334, 35215,
  29105, 38936, 19971, 28023, 21475, 26481, 23566, 22120,
  22739, 24535, 19990, 37329, 22686, 29229, 28639, 38542,
  27833, 24605, 34899, 26997, 20132, 21463, 32879, 20160,
  35469, 20845, 20849, 27402, 25910, 35657, 25913, 28165,
  32654, 20877, 25505, 36681, 26356, 21934, 39080, 20999,
  25171, 30333, 25945, 36895, 33457, 24118, 23433, 22580,
  36523, 36554, 20363, 30495, 21209, 20855, 33836, 27599,
  30446, 33267, 36948, 36208, 31309, 31034, 35696, 32882,
  22577, 39717, 23436, 39006, 20843, 38626, 33775, 21517,
  30906, 25165, 31185, 24373, 20449, 39340, 31680, 35441,
  31859, 25972, 31354, 20803, 27841, 20170, 38598, 28331,
  20659, 22303, 35377, 27493, 32676, 24291, 30707, 35352,
  38656, 27573, 30740, 30028, 25289, 26519, 24459, 21483,
  19988, 31350, 35264, 36234, 32340, 35037, 24433, 31639,
  20302, 25345, 38899, 30526, 26360, 24067, 22797, 23481,
  20818, 38920, 38555, 21830, 38750, 39511, 36899, 26039,
  28145, 38627, 36817, 31014, 21315, 36913, 22996, 32032,
  25216, 20633, 21322, 36774, 38738, 30465, 21015, 32722,
  38911, 32004, 25903, 33324, 21490, 24863, 21214, 20415,
  22296, 24448, 37240, 27511, 24066, 20811, 20309, 38500,
  28040, 27083, 24220, 31281, 22826, 28310, 31934, 20540,
  34399, 29575, 26063, 32173, 21123, 36984, 27161, 23531,
  23384, 20505, 27611, 35242, 24555, 25928, 26031, 38498,
  26597, 27743, 22411, 30524, 29579, 25353, 26684, 39178,
  26131, 32622, 27966, 23652, 29255, 22987, 21371, 23560,
  29376, 32946, 24288, 20140, 35672, 36969, 23660, 22291,
  21253, 28779, 20303, 35519, 28415, 32291, 23616, 29031,
  21443, 32005, 32048, 24341, 32893, 35442, 37941, 20729,
  22196, 39318, 24213, 28082, 23448, 24503, 38568, 30149,
  34311, 22833, 29246, 27515, 35611, 37197, 22899, 40643,
  25512, 39023, 35527, 32618, 31070, 34269, 21602, 24109,
  21547, 20225, 26395, 23494, 25209, 29151, 38917, 38450,
  33289, 29699, 33521, 27687, 21218, 21578, 26446, 21488,
  33853, 26408, 24171, 36650, 30772, 20126, 24107, 22285,
  27880, 36960, 23383, 26448, 25490, 20379, 27827, 24907,
  23553, 21478, 26045, 28187, 27193, 28342, 24590, 27490,
  26696, 35328, 22763, 22343, 27494, 22266, 33865, 39770,
  27874, 35222, 20677, 36027, 32202, 24859, 24038, 31456,
  26089, 26397, 23475, 32396, 36629, 26381, 35430, 39135,
  20805, 20853, 28304, 21028, 35703, 21496, 36275, 26576,
  32244, 24046, 33268, 26495, 30000, 38477, 40657, 29359,
  36000, 25802, 33539, 32380, 33288, 20284, 39192, 22533,
  26354, 36664, 20462, 25925, 22478, 22827, 22816, 36865,
  31558, 33337, 20308, 21491, 36001, 21507, 23500, 26149,
  32887, 35258, 28450, 30059, 21151, 24052, 36319, 38614,
  38620, 39131, 27298, 21560, 21161, 26119, 38525, 20114,
  21021, 21109, 25239, 32771, 25237, 22750, 31574, 21476,
  24465, 25563, 26410, 36305, 30041, 37628, 26366, 31471,
  36012, 31449, 31777, 36848, 37666, 21103, 30433, 24093,
  23556, 33609, 34909, 25215, 29544, 20196, 38480, 38463,
  23459, 29872, 38617, 35531, 36229, 24494, 35731, 25511,
  24030, 33391, 36600, 25214, 21542, 32000, 30410, 20381,
  20778, 38914, 30990, 36617, 20498, 25151, 31361, 22352,
  31881, 25973, 30053, 23458, 34945, 20919, 21213, 32085,
  26512, 22602, 21137, 28204, 32114, 21332, 35380, 24565,
  38515, 20173, 32645, 40573, 21451, 27915, 37679, 33510,
  22812, 21009, 31227, 38971, 36880, 38752, 28151, 27597,
  30701, 30382, 32066, 32858, 27773, 26449, 38642, 21738,
  26082, 36317, 34907, 20572, 28872, 22830, 23519, 29138,
  36805, 22659, 33509, 21360, 27954, 21051, 25324, 28608,
  23380, 25630, 29978, 23460, 24453, 26680, 26657, 25955,
  20405, 21543, 30002, 36938, 20037, 33756, 21619, 33290,
  27169, 28246, 36008, 25613, 38928, 38459, 27627, 26222,
  31337, 20057, 23229, 26893, 24687, 25844, 37504, 35486,
  25582, 37202, 23432, 25343, 24207, 32025, 37291, 32570,
  38632, 21966, 37341, 21129, 21834, 24613, 21809, 35492,
  35347, 39000, 23529, 38468, 29554, 33590, 39854, 31975,
  26020, 23401, 33067, 30827, 32933, 21892, 40845, 28436,
  29238, 28472, 34880, 27489, 26800, 25484, 27468, 27801,
  21083, 25915, 35586, 30462, 35342, 26202, 31890, 20098,
  29123, 30683, 20046, 27578, 34277, 23527, 39791, 36020,
  37912, 29028, 35712, 29677, 20271, 39321, 20171, 36843,
  21477, 35920, 22521, 25569, 34349, 25812, 24358, 34507,
  27785, 20551, 31359, 22519, 31572, 27138, 35504, 38918,
  29017, 32302, 24501, 33225, 21916, 26494, 33139, 22256,
  30064, 20813, 32972, 26143, 31119, 36023, 26579, 20117,
  27010, 24930, 24597, 30913, 20493, 31062, 30343, 20419,
  38748, 35036, 35413, 32763, 32905, 36368, 23612, 34915,
  23532, 25562, 26825, 24076, 20663, 25805, 22402, 31179,
  23452, 27691, 22871, 30563, 25391, 26550, 20142, 26411,
  25010, 24950, 32232, 29275, 35320, 26144, 38647, 37559,
  35433, 24231, 23621, 25235, 35010, 32990, 21628, 23064,
  26223, 23041, 32160, 26230, 21402, 30431, 34913, 38622,
  23403, 24310, 21361, 33184, 23627, 37129, 33256, 38520,
  39015, 25481, 21568, 29128, 27506, 25514, 26463, 32784,
  21127, 29577, 36249, 36339, 21733, 23395, 35506, 20977,
  32993, 38989, 27454, 32057, 21367, 40778, 20553, 33976,
  27542, 27704, 23447, 33495, 24029, 29200, 23721, 24369,
  38646, 26954, 22863, 27839, 38706, 26751, 25506, 28369,
  37806, 39151, 28611, 33322, 25079, 36245, 24235, 22890,
  20234, 38728, 31237, 36884, 28357, 36093, 27512, 21484,
  40723, 25773, 30436, 35009, 38570, 24247, 21807, 37636,
  33740, 32020, 20511, 31958, 33995, 27243, 31526, 31169,
  21162, 22530, 22495, 27085, 28516, 24133, 21704, 31455,
  29087, 34802, 28580, 33126, 22756, 30899, 27472, 36941,
  20596, 23528, 25954, 24505, 24942, 26012, 34180, 24237,
  32013, 24392, 39164, 20280, 25240, 40613, 28629, 26263,
  33655, 29926, 22622, 24202, 31689, 24801, 25142, 35370,
  22612, 22855, 36879, 26753, 20992, 26059, 36321, 21345,
  27695, 36935, 20221, 27602, 27877, 36864, 27927, 25850,
  28784, 24425, 36067, 32791, 22799, 25799, 24537, 37509,
  29563, 30828, 20104, 32321, 22280, 38634, 20989, 20134,
  25277, 31687, 38499, 38512, 19969, 23610, 36861, 22534,
  38596, 36814, 27867, 29240, 27155, 36991, 35584, 22136,
  37326, 35948, 26071, 32047, 20559, 20856, 39208, 32034,
  31206, 33026, 28526, 29242, 35910, 24573, 25176, 39514,
  22609, 36986, 24840, 26417, 26367, 32406, 31895, 20670,
  23578, 30171, 26970, 35613, 22894, 36092, 30952, 21531,
  27744, 26049, 30862, 39592, 30435, 25429, 24351, 26292,
  21106, 36011, 27530, 37323, 35422, 20129, 22721, 38931,
  23542, 21320, 22645, 32862, 25581, 28846, 27544, 20908,
  27211, 23142, 35686, 32156, 25307, 21555, 20184, 28014,
  36973, 24464, 24744, 25622, 35895, 36106, 31665, 38548,
  35330, 30007, 21561, 22290, 32027, 21776, 25943, 23435,
  29627, 24040, 32789, 22374, 27054, 38281, 28771, 37749,
  20961, 39376, 37707, 25937, 24681, 21085, 20957, 40572,
  40786, 25130, 29001, 40635, 32033, 31105, 24290, 30427,
  29256, 32233, 28136, 30555, 26124, 23130, 28041, 31570,
  22068, 25554, 23736, 26391, 33674, 34903, 34255, 22993,
  36031, 33104, 22900, 21862, 24931, 20056, 22821, 24674,
  21243, 32023, 25166, 36783, 32819, 24426, 33251, 20740,
  29827, 25269, 33032, 31168, 34217, 20420, 32178, 33310,
  24215, 22132, 32305, 23544, 27735, 25499, 27946, 36032,
  38275, 26604, 29190, 28911, 27941, 31291, 29254, 36575,
  21191, 20687, 28414, 21400, 33945, 33459, 32943, 22369,
  26609, 30442, 33151, 20736, 26053, 23614, 36555, 20912,
  36002, 30331, 40654, 21066, 38013, 21202, 36867, 38556,
  27688, 37101, 23792, 24163, 28207, 20239, 36556, 30045,
  30050, 25830, 33707, 21050, 28010, 31192, 25588, 26666,
  20581, 21806, 32929, 23798, 29976, 27873, 30561, 31461,
  37956, 28271, 38309, 20241, 21295, 33293, 29287, 32350,
  28856, 21746, 30967, 32318, 26379, 28129, 23574, 21855,
  38519, 26612, 21576, 24466, 38991, 28122, 31245, 24536,
  27893, 34253, 25302, 27934, 25480, 37857, 36763, 22767,
  37586, 36007, 34395, 24398, 25705, 27888, 24188, 24311,
  23562, 31383, 32177, 24324, 38584, 30097, 27663, 23470,
  22992, 38663, 29790, 24618, 23588, 29748, 24490, 25551,
  33180, 36949, 22846, 33136, 32227, 29664, 31406, 26862,
  26525, 31481, 28317, 20652, 32361, 25014, 37030, 21097,
  24184, 28479, 27396, 25793, 29273, 36015, 31150, 28670,
  37385, 32011, 32631, 25293, 21681, 21898, 34966, 22467,
  21220, 32624, 28966, 28507, 20237, 22696, 27442, 32299,
  22995, 21002, 39165, 20223, 29518, 37569, 39740, 40599,
  36328, 40664, 25366, 37832, 25475, 21917, 34955, 28845,
  27745, 24149, 35576, 24359, 21237, 26757, 22902, 28500,
  28797, 33311, 37969, 33519, 35359, 25265, 27584, 25026,
  23506, 26234, 22484, 23492, 23622, 36493, 28193, 25361,
  20025, 33393, 35997, 30896, 25300, 29241, 25140, 30908,
  22818, 33469, 29076, 36196, 28417, 21741, 25964, 38982,
  22868, 37467, 20210, 34382, 31232, 22969, 20047, 29645,
  30003, 26700, 36981, 20801, 38534, 34746, 20489, 39759,
  37555, 26313, 27694, 20860, 38577, 31001, 36203, 25765,
  24544, 32901, 32568, 29309, 25654, 21338, 24039, 27580,
  20804, 26460, 35338, 35488, 30887, 31077, 26607, 38913,
  24033, 30697, 24754, 28748, 40801, 20523, 31080, 23563,
  26690, 37610, 32854, 24656, 24688, 37165, 36259, 25260,
  33618, 39472, 36028, 26580, 28404, 29467, 38346, 36635,
  22971, 22635, 25764, 20786, 31805, 39719, 25854, 32043,
  30722, 36958, 25138, 21514, 38518, 20240, 39221, 30274,
  29942, 23110, 25771, 33218, 25720, 24525, 34662, 34847,
  37168, 33016, 38799, 25824, 20598, 26820, 27133, 21185,
  20083, 37159, 21513, 20161, 29211, 30938, 31199, 28879,
  33382, 20276, 29916, 28154, 19993, 26283, 29157, 27233,
  26611, 36855, 26262, 29260, 31207, 33213, 35443, 31783,
  36367, 29943, 35676, 21574, 36051, 31946, 27931, 36637,
  24996, 31478, 38553, 24594, 31896, 20035, 32210, 32937,
  31821, 25935, 22615, 29081, 30342, 20597, 25080, 25496,
  20139, 31998, 37266, 29378, 37782, 28096, 24680, 29298,
  38712, 29228, 36062, 36870, 29609, 38517, 31069, 31186,
  27993, 35980, 24441, 24444, 24713, 40232, 36264, 40179,
  26216, 30044, 36649, 31209, 21365, 32626, 26799, 28814,
  28760, 26827, 39493, 31721, 23805, 20882, 21861, 22781,
  35695, 28024, 27849, 24125, 36978, 30717, 30086, 36024,
  28431, 31295, 20896, 23273, 33029, 33455, 29282, 21467,
  34645, 22887, 40180, 23994, 32650, 24977, 20018, 22616,
  32362, 37237, 34701, 30406, 37675, 24287, 31820, 20941,
  36628, 25885, 35186, 31563, 25298, 20698, 26097, 37440,
  40165, 28422, 27784, 30473, 30095, 28155, 26834, 31319,
  30813, 38867, 36924, 25197, 20689, 28092, 25402, 30871,
  26685, 28818, 26479, 24739, 39230, 21240, 35946, 36988,
  21187, 40251, 26086, 21519, 25308, 29399, 22475, 36645,
  25513, 39154, 25644, 32629, 36781, 21246, 25187, 20272,
  34083, 32104, 38695, 19976, 26421, 22982, 25836, 23431,
  36655, 38493, 38613, 20767, 33988, 23815, 21098, 20513,
  24307, 21676, 39387, 34223, 21047, 26021, 30058, 36070,
  22857, 20315, 28550, 28459, 26364, 25159, 37411, 26691,
  25206, 20180, 36820, 20439, 34407, 33108, 38795, 26865,
  35206, 26694, 24708, 21460, 25758, 39449, 21208, 26106,
  27832, 23396, 21520, 23391, 28192, 23624, 30142, 22937,
  24796, 20208, 29408, 33081, 35559, 25291, 40692, 26705,
  23831, 22043, 34928, 30428, 28402, 33247, 36084, 28263,
  29980, 26361, 38321, 32908, 21737, 21426, 28916, 32239,
  27589, 26152, 20605, 30151, 29038, 22022, 37336, 25645,
  33686, 31840, 37239, 20599, 24339, 37648, 24646, 20625,
  22353, 40763, 32764, 32184, 25944, 29508, 36910, 32592,
  32097, 26842, 25233, 33192, 34092, 23546, 39519, 31302,
  20918, 26543, 20874, 23629, 20984, 32051, 22383, 29351,
  28976, 36703, 27427, 26185, 30246, 31142, 37664, 37670,
  21930, 26092, 37723, 22751, 25628, 25778, 36992, 20141,
  37231, 36993, 33298, 33030, 37238, 38290, 24962, 37210,
  38929, 32701, 28466, 21368, 20183, 38506, 38370, 25074,
  26477, 23002, 32922, 25417, 39108, 28418, 26118, 27450,
  21566, 37070, 28919, 27713, 21621, 39166, 34157, 38597,
  37109, 36983, 29141, 25746, 23035, 36212, 23476, 29033,
  20661, 24115, 26001, 37428, 26088, 37255, 33891, 39173,
  38619, 23039, 25292, 20613, 33145, 22949, 25545, 36066,
  25286, 27498, 33889, 33018, 19999, 28009, 24509, 26114,
  22666, 25803, 35261, 36010, 24944, 32371, 27754, 24908,
  39342, 35582, 23004, 35516, 20807, 21155, 35491, 32768,
  26127, 36538, 30408, 39438, 21932, 28330, 21474, 30439,
  25273, 24758, 35566, 21038, 39381, 32412, 24735, 25688,
  37498, 25842, 38935, 24187, 26564, 24800, 24920, 20339,
  20167, 33240, 31401, 28364, 21133, 30631, 22561, 28497,
  34085, 32617, 38669, 25736, 32974, 33980, 28657, 20486,
  25413, 28248, 30733, 38686, 37045, 33796, 30219, 28142,
  36930, 29066, 31966, 28888, 23487, 27284, 25096, 39361,
  23234, 35029, 24473, 31661, 25424, 33144, 25744, 26348,
  36776, 27583, 34030, 25892, 25898, 37292, 23631, 30123,
  21696, 34081, 22581, 27819, 30394, 26274, 30090, 38307,
  33802, 25970, 36676, 37476, 30165, 22761, 24055, 39187,
  31117, 19992, 29572, 28316, 26352, 37007, 24429, 22039,
  21375, 22952, 33351, 21534, 38859, 24616, 30702, 27463]

/-- A modulus under which all codes of the dictionary are distinct (used only in proofs). -/
def chineseTraditionalModulus : Nat := 100001

end KC.Bip39.DictData
