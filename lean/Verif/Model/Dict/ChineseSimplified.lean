/-
Generated from bip39/src/dicts/bip39_chinese_simplified.txt.
-/
namespace KC.Bip39.DictData

set_option maxRecDepth 100000 in
/-- bip39/src/dicts/bip39_chinese_simplified.txt: the 2048 words in order, each as the number whose base 2^21 digits, least
significant first, are the code points of the word. -/
def chineseSimplifiedCodes : List Nat := [
  30340, 19968, 26159, 22312, 19981, 20102, 26377, 21644,
  20154, 36825, 20013, 22823, 20026, 19978, 20010, 22269,
  25105, 20197, 35201, 20182, 26102, 26469, 29992, 20204,
  29983, 21040, 20316, 22320, 20110, 20986, 23601, 20998,
  23545, 25104, 20250, 21487, 20027, 21457, 24180, 21160,
  21516, 24037, 20063, 33021, 19979, 36807, 23376, 35828,
  20135, 31181, 38754, 32780, 26041, 21518, 22810, 23450,
  34892, 23398, 27861, 25152, 27665, 24471, 32463, 21313,
  19977, 20043, 36827, 30528, 31561, 37096, 24230, 23478,
  30005, 21147, 37324, 22914, 27700, 21270, 39640, 33258,
  20108, 29702, 36215, 23567, 29289, 29616, 23454, 21152,
  37327, 37117, 20004, 20307, 21046, 26426, 24403, 20351,
  28857, 20174, 19994, 26412, 21435, 25226, 24615, 22909,
  24212, 24320, 23427, 21512, 36824, 22240, 30001, 20854,
  20123, 28982, 21069, 22806, 22825, 25919, 22235, 26085,
  37027, 31038, 20041, 20107, 24179, 24418, 30456, 20840,
  34920, 38388, 26679, 19982, 20851, 21508, 37325, 26032,
  32447, 20869, 25968, 27491, 24515, 21453, 20320, 26126,
  30475, 21407, 21448, 20040, 21033, 27604, 25110, 20294,
  36136, 27668, 31532, 21521, 36947, 21629, 27492, 21464,
  26465, 21482, 27809, 32467, 35299, 38382, 24847, 24314,
  26376, 20844, 26080, 31995, 20891, 24456, 24773, 32773,
  26368, 31435, 20195, 24819, 24050, 36890, 24182, 25552,
  30452, 39064, 20826, 31243, 23637, 20116, 26524, 26009,
  35937, 21592, 38761, 20301, 20837, 24120, 25991, 24635,
  27425, 21697, 24335, 27963, 35774, 21450, 31649, 29305,
  20214, 38271, 27714, 32769, 22836, 22522, 36164, 36793,
  27969, 36335, 32423, 23569, 22270, 23665, 32479, 25509,
  30693, 36739, 23558, 32452, 35265, 35745, 21035, 22905,
  25163, 35282, 26399, 26681, 35770, 36816, 20892, 25351,
  20960, 20061, 21306, 24378, 25918, 20915, 35199, 34987,
  24178, 20570, 24517, 25112, 20808, 22238, 21017, 20219,
  21462, 25454, 22788, 38431, 21335, 32473, 33394, 20809,
  38376, 21363, 20445, 27835, 21271, 36896, 30334, 35268,
  28909, 39046, 19971, 28023, 21475, 19996, 23548, 22120,
  21387, 24535, 19990, 37329, 22686, 20105, 27982, 38454,
  27833, 24605, 26415, 26497, 20132, 21463, 32852, 20160,
  35748, 20845, 20849, 26435, 25910, 35777, 25913, 28165,
  32654, 20877, 37319, 36716, 26356, 21333, 39118, 20999,
  25171, 30333, 25945, 36895, 33457, 24102, 23433, 22330,
  36523, 36710, 20363, 30495, 21153, 20855, 19975, 27599,
  30446, 33267, 36798, 36208, 31215, 31034, 35758, 22768,
  25253, 26007, 23436, 31867, 20843, 31163, 21326, 21517,
  30830, 25165, 31185, 24352, 20449, 39532, 33410, 35805,
  31859, 25972, 31354, 20803, 20917, 20170, 38598, 28201,
  20256, 22303, 35768, 27493, 32676, 24191, 30707, 35760,
  38656, 27573, 30740, 30028, 25289, 26519, 24459, 21483,
  19988, 31350, 35266, 36234, 32455, 35013, 24433, 31639,
  20302, 25345, 38899, 20247, 20070, 24067, 22797, 23481,
  20799, 39035, 38469, 21830, 38750, 39564, 36830, 26029,
  28145, 38590, 36817, 30719, 21315, 21608, 22996, 32032,
  25216, 22791, 21322, 21150, 38738, 30465, 21015, 20064,
  21709, 32422, 25903, 33324, 21490, 24863, 21171, 20415,
  22242, 24448, 37240, 21382, 24066, 20811, 20309, 38500,
  28040, 26500, 24220, 31216, 22826, 20934, 31934, 20540,
  21495, 29575, 26063, 32500, 21010, 36873, 26631, 20889,
  23384, 20505, 27611, 20146, 24555, 25928, 26031, 38498,
  26597, 27743, 22411, 30524, 29579, 25353, 26684, 20859,
  26131, 32622, 27966, 23618, 29255, 22987, 21364, 19987,
  29366, 32946, 21378, 20140, 35782, 36866, 23646, 22278,
  21253, 28779, 20303, 35843, 28385, 21439, 23616, 29031,
  21442, 32418, 32454, 24341, 21548, 35813, 38081, 20215,
  20005, 39318, 24213, 28082, 23448, 24503, 38543, 30149,
  33487, 22833, 23572, 27515, 35762, 37197, 22899, 40644,
  25512, 26174, 35848, 32618, 31070, 33402, 21602, 24109,
  21547, 20225, 26395, 23494, 25209, 33829, 39033, 38450,
  20030, 29699, 33521, 27687, 21183, 21578, 26446, 21488,
  33853, 26408, 24110, 36718, 30772, 20122, 24072, 22260,
  27880, 36828, 23383, 26448, 25490, 20379, 27827, 24577,
  23553, 21478, 26045, 20943, 26641, 28342, 24590, 27490,
  26696, 35328, 22763, 22343, 27494, 22266, 21494, 40060,
  27874, 35270, 20165, 36153, 32039, 29233, 24038, 31456,
  26089, 26397, 23475, 32493, 36731, 26381, 35797, 39135,
  20805, 20853, 28304, 21028, 25252, 21496, 36275, 26576,
  32451, 24046, 33268, 26495, 30000, 38477, 40657, 29359,
  36127, 20987, 33539, 32487, 20852, 20284, 20313, 22362,
  26354, 36755, 20462, 25925, 22478, 22827, 22815, 36865,
  31508, 33337, 21344, 21491, 36130, 21507, 23500, 26149,
  32844, 35273, 27721, 30011, 21151, 24052, 36319, 34429,
  26434, 39134, 26816, 21560, 21161, 21319, 38451, 20114,
  21021, 21019, 25239, 32771, 25237, 22351, 31574, 21476,
  24452, 25442, 26410, 36305, 30041, 38050, 26366, 31471,
  36131, 31449, 31616, 36848, 38065, 21103, 23613, 24093,
  23556, 33609, 20914, 25215, 29420, 20196, 38480, 38463,
  23459, 29615, 21452, 35831, 36229, 24494, 35753, 25511,
  24030, 33391, 36724, 25214, 21542, 32426, 30410, 20381,
  20248, 39030, 30784, 36733, 20498, 25151, 31361, 22352,
  31881, 25932, 30053, 23458, 34945, 20919, 32988, 32477,
  26512, 22359, 21058, 27979, 19997, 21327, 35785, 24565,
  38472, 20173, 32599, 30416, 21451, 27915, 38169, 33510,
  22812, 21009, 31227, 39057, 36880, 38752, 28151, 27597,
  30701, 30382, 32456, 32858, 27773, 26449, 20113, 21738,
  26082, 36317, 21355, 20572, 28872, 22830, 23519, 28903,
  36805, 22659, 33509, 21360, 27954, 21051, 25324, 28608,
  23380, 25630, 29978, 23460, 24453, 26680, 26657, 25955,
  20405, 21543, 30002, 28216, 20037, 33756, 21619, 26087,
  27169, 28246, 36135, 25439, 39044, 38459, 27627, 26222,
  31283, 20057, 22920, 26893, 24687, 25193, 38134, 35821,
  25381, 37202, 23432, 25343, 24207, 32440, 21307, 32570,
  38632, 21527, 38024, 21016, 21834, 24613, 21809, 35823,
  35757, 24895, 23457, 38468, 33719, 33590, 40092, 31918,
  26020, 23401, 33073, 30827, 32933, 21892, 40857, 28436,
  29238, 28176, 34880, 27426, 26800, 25484, 27468, 27801,
  21018, 25915, 35859, 30462, 35752, 26202, 31890, 20081,
  29123, 30683, 20046, 26432, 33647, 23425, 40065, 36149,
  38047, 29028, 35835, 29677, 20271, 39321, 20171, 36843,
  21477, 20016, 22521, 25569, 20848, 25285, 24358, 34507,
  27785, 20551, 31359, 25191, 31572, 20048, 35841, 39034,
  28895, 32553, 24449, 33080, 21916, 26494, 33050, 22256,
  24322, 20813, 32972, 26143, 31119, 20080, 26579, 20117,
  27010, 24930, 24597, 30913, 20493, 31062, 30343, 20419,
  38745, 34917, 35780, 32763, 32905, 36341, 23612, 34915,
  23485, 25196, 26825, 24076, 20260, 25805, 22402, 31179,
  23452, 27682, 22871, 30563, 25391, 26550, 20142, 26411,
  23466, 24198, 32534, 29275, 35302, 26144, 38647, 38144,
  35799, 24231, 23621, 25235, 35010, 32990, 21628, 23064,
  26223, 23041, 32511, 26230, 21402, 30431, 34913, 40481,
  23385, 24310, 21361, 33014, 23627, 20065, 20020, 38470,
  39038, 25481, 21568, 28783, 23681, 25514, 26463, 32784,
  21095, 29577, 36213, 36339, 21733, 23395, 35838, 20975,
  32993, 39069, 27454, 32461, 21367, 40784, 20255, 33976,
  27542, 27704, 23447, 33495, 24029, 28809, 23721, 24369,
  38646, 26472, 22863, 27839, 38706, 26438, 25506, 28369,
  38215, 39277, 27987, 33322, 24576, 36214, 24211, 22842,
  20234, 28789, 31246, 36884, 28781, 36187, 24402, 21484,
  40723, 25773, 30424, 35009, 38505, 24247, 21807, 24405,
  33740, 32431, 20511, 31958, 30422, 27178, 31526, 31169,
  21162, 22530, 22495, 26538, 28070, 24133, 21704, 31455,
  29087, 34411, 27901, 33041, 22756, 30899, 27431, 36941,
  20391, 23528, 25954, 24443, 34385, 26012, 34180, 24237,
  32435, 24377, 39282, 20280, 25240, 40614, 28287, 26263,
  33655, 29926, 22622, 24202, 31569, 24694, 25143, 35775,
  22612, 22855, 36879, 26753, 20992, 26059, 36857, 21345,
  27695, 36935, 20221, 27602, 27877, 36864, 27927, 25670,
  28784, 24425, 21334, 32791, 22799, 25321, 24537, 38108,
  29486, 30828, 20104, 32321, 22280, 38634, 20989, 20134,
  25277, 31687, 38453, 38452, 19969, 23610, 36861, 22534,
  38596, 36814, 27867, 29240, 27004, 36991, 35851, 21544,
  37326, 29482, 26071, 32047, 20559, 20856, 39302, 32034,
  31206, 33026, 28526, 29239, 35910, 24573, 25176, 24778,
  22609, 36951, 24840, 26417, 26367, 32420, 31895, 20542,
  23578, 30171, 26970, 35874, 22859, 36141, 30952, 21531,
  27744, 26049, 30862, 39592, 30417, 25429, 24351, 26292,
  21106, 36143, 27530, 37322, 35789, 20129, 22721, 39039,
  23453, 21320, 23576, 38395, 25581, 28846, 27531, 20908,
  26725, 22919, 35686, 32508, 25307, 21556, 20184, 28014,
  36973, 24464, 24744, 25671, 35895, 36190, 31665, 38548,
  35746, 30007, 21561, 22253, 32439, 21776, 36133, 23435,
  29627, 24040, 32789, 22374, 33635, 38381, 28286, 38190,
  20961, 39547, 38149, 25937, 24681, 21093, 20957, 30897,
  40831, 25130, 28860, 40635, 32442, 31105, 24223, 30427,
  29256, 32531, 20928, 30555, 26124, 23130, 28041, 31570,
  22068, 25554, 23736, 26391, 24196, 34903, 34255, 22993,
  36152, 33104, 22900, 21862, 24815, 20056, 20249, 24674,
  21248, 32433, 25166, 36777, 32819, 24426, 33251, 20159,
  29827, 25269, 33033, 31168, 33832, 20420, 32593, 33310,
  24215, 21943, 32437, 23544, 27735, 25346, 27946, 36154,
  38378, 26604, 29190, 28911, 27941, 31291, 22681, 36719,
  21191, 20687, 28378, 21400, 33945, 33459, 32943, 22369,
  26609, 33633, 33151, 20202, 26053, 23614, 36711, 20912,
  36129, 30331, 40654, 21066, 38075, 21202, 36867, 38556,
  27688, 37101, 23792, 24065, 28207, 20239, 36712, 20137,
  27605, 25830, 33707, 21050, 28010, 31192, 25588, 26666,
  20581, 21806, 32929, 23707, 29976, 27873, 30561, 31461,
  38136, 27748, 38400, 20241, 27719, 33293, 29287, 32469,
  28856, 21746, 30967, 32489, 26379, 28129, 23574, 21551,
  38519, 26612, 21576, 24466, 39068, 27882, 31245, 24536,
  27893, 34013, 25302, 27934, 25480, 38236, 36763, 22766,
  38155, 36139, 34394, 24367, 25705, 27888, 24188, 24311,
  23562, 31383, 32434, 24324, 38582, 30097, 27663, 23467,
  22992, 38663, 29790, 24618, 23588, 29748, 24490, 25551,
  33180, 36829, 22841, 33136, 32536, 29664, 31351, 26862,
  26525, 31481, 27807, 20652, 32499, 24518, 37030, 21097,
  24184, 27974, 26639, 25317, 29273, 36142, 31036, 28388,
  38048, 32441, 32610, 25293, 21681, 21898, 34966, 22467,
  21220, 32602, 28966, 28508, 20237, 22696, 27442, 32541,
  22995, 21002, 39281, 20223, 22870, 38109, 39740, 20029,
  36328, 40664, 25366, 38142, 25195, 21917, 34955, 28845,
  27745, 24149, 35832, 24359, 21169, 26757, 22902, 27905,
  28798, 33311, 37492, 33519, 35772, 25265, 27585, 25026,
  23506, 26234, 22484, 23492, 23626, 36291, 28193, 25361,
  20025, 33392, 36125, 30896, 25300, 29241, 25140, 30721,
  26790, 33469, 29076, 36196, 28180, 21741, 25964, 39063,
  22868, 38085, 20210, 34382, 31232, 22969, 20047, 29645,
  30003, 26700, 36981, 20801, 38534, 34746, 20179, 39759,
  38160, 26195, 27694, 20860, 38544, 30861, 36203, 25320,
  24544, 32899, 32568, 29301, 25250, 21338, 24039, 22771,
  20804, 26460, 35759, 35802, 30887, 31077, 26607, 39029,
  24033, 30697, 24754, 28748, 40836, 20262, 31080, 23547,
  26690, 38138, 22307, 24656, 24688, 37073, 36259, 25260,
  33618, 33150, 36148, 26580, 28404, 29467, 38420, 36742,
  22971, 22635, 25764, 20648, 31614, 38393, 25200, 32043,
  30722, 36882, 25103, 21514, 38518, 20240, 21890, 30103,
  29942, 23110, 25242, 33218, 25720, 24525, 34430, 34593,
  37051, 33016, 24041, 25380, 20598, 24323, 27133, 21170,
  20083, 37011, 21513, 20161, 28866, 30742, 31199, 20044,
  33328, 20276, 29916, 27973, 19993, 26242, 29157, 27233,
  26611, 36855, 26262, 29260, 31207, 32966, 35814, 31783,
  36367, 29943, 35889, 21574, 23486, 31946, 27931, 36745,
  24868, 31454, 38553, 24594, 31896, 20035, 32490, 32937,
  31821, 25935, 28034, 29081, 30342, 20390, 24748, 25496,
  20139, 32416, 37266, 29378, 38145, 28096, 24680, 29298,
  38712, 29228, 36175, 36870, 29609, 38517, 31069, 31186,
  27993, 35980, 24441, 24444, 24713, 40493, 36235, 20964,
  26216, 30044, 36744, 31209, 21365, 32626, 26799, 28814,
  28393, 26827, 39537, 31579, 23777, 20882, 21861, 23551,
  35793, 28024, 27849, 24125, 36831, 30789, 30086, 36151,
  28431, 31295, 20896, 23273, 32961, 33455, 29282, 21467,
  34432, 22885, 40483, 23725, 32650, 20973, 20018, 22616,
  32472, 37237, 34701, 30406, 38177, 24217, 31609, 20923,
  36741, 25668, 34989, 31563, 25298, 20698, 26097, 38078,
  40479, 28422, 27784, 30473, 30095, 28155, 26834, 31319,
  30813, 38889, 36924, 25197, 20392, 20937, 25402, 30871,
  26685, 28818, 26479, 24739, 39311, 21149, 35946, 36797,
  21187, 40511, 26086, 21519, 25308, 29399, 22475, 36746,
  25513, 39278, 25644, 39554, 36766, 21246, 25187, 20272,
  33931, 32466, 38654, 19976, 26421, 22982, 25311, 23431,
  36753, 38485, 38613, 20607, 33988, 23815, 21098, 20513,
  21381, 21676, 39542, 34223, 21047, 26021, 30058, 36171,
  22857, 20315, 27975, 28459, 26364, 25159, 38041, 26691,
  25206, 20180, 36820, 20439, 20111, 33108, 38795, 26865,
  35206, 26694, 24708, 21460, 25758, 39575, 21208, 26106,
  27832, 23396, 21520, 23391, 28192, 23624, 30142, 22937,
  24796, 20208, 29408, 32960, 35856, 25243, 38665, 26705,
  23703, 22043, 34928, 30423, 28183, 33039, 36182, 28044,
  29980, 26361, 38405, 32908, 21737, 21385, 28867, 32428,
  27589, 26152, 20266, 30151, 29038, 21497, 38025, 25645,
  33550, 31548, 37239, 20599, 24339, 38181, 24658, 26480,
  22353, 40763, 32764, 32438, 21465, 29425, 36910, 32592,
  32476, 26842, 25233, 33192, 34092, 23546, 39588, 31302,
  20918, 26543, 20876, 23608, 20984, 32453, 22383, 29306,
  28976, 36720, 27427, 26187, 30246, 24481, 38189, 38182,
  20007, 26092, 38203, 22404, 25628, 25169, 36992, 20141,
  37231, 36808, 33298, 33030, 37238, 38386, 24551, 37210,
  39037, 32701, 28072, 21368, 20183, 38506, 36767, 24809,
  26477, 23002, 32922, 25417, 39128, 28418, 26118, 27450,
  21566, 37070, 28919, 27713, 21621, 39280, 33831, 38597,
  37038, 36801, 29141, 25746, 23035, 36212, 23476, 28902,
  20538, 24080, 26001, 38083, 26088, 37255, 33891, 39292,
  38607, 23039, 25292, 20613, 33145, 22949, 25545, 36132,
  25286, 27498, 33889, 33018, 20002, 28009, 24509, 26114,
  22443, 25377, 35272, 36138, 24944, 32564, 27754, 24908,
  20911, 35834, 23004, 35850, 20982, 21155, 35820, 32768,
  26127, 36538, 30408, 39569, 20052, 28330, 19995, 21346,
  25273, 38391, 21672, 21038, 39550, 32518, 24735, 25688,
  38098, 25527, 39047, 24187, 26564, 24800, 24808, 20339,
  20167, 33098, 31389, 28068, 21073, 30631, 22561, 27900,
  33905, 32617, 38669, 25438, 32974, 33485, 28392, 20457,
  25413, 28248, 30733, 38686, 37045, 33796, 30127, 28142,
  36930, 29066, 31914, 28888, 23487, 26723, 25096, 39539,
  23234, 35029, 24473, 31661, 25424, 32928, 25745, 26194,
  36776, 27583, 33714, 25674, 25605, 37233, 23631, 30123,
  21696, 34081, 22581, 27819, 30385, 30021, 21472, 38401,
  33713, 25970, 36758, 38057, 30165, 22365, 24055, 39295,
  31096, 19992, 29572, 28316, 26352, 36923, 24429, 23581,
  21375, 22952, 33351, 21534, 38886, 24616, 30702, 27463]

/-- A modulus under which all codes of the dictionary are distinct (used only in proofs). -/
def chineseSimplifiedModulus : Nat := 100001

end KC.Bip39.DictData
