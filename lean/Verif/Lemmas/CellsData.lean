import Verif.Lemmas.Cells

/-!
# The pieces of the saturation line
-/

namespace PyX.Kron

set_option maxRecDepth 20000
set_option Elab.async false

def cellsL : List Cell :=
  [⟨27315, 27616, 15723457, 16596103, 3, 0, 2306, ⟨7099954, 10, 1000000, 259596, 3782, 1000000⟩⟩,
   ⟨27616, 28062, 16596100, 17935865, 3, 0, 4675, ⟨7099937, 18, 1000000, 263377, 5653, 1000000⟩⟩,
   ⟨28062, 28710, 17935862, 19980479, 2, 0, 8081, ⟨7099903, 35, 1000000, 269029, 8319, 1000000⟩⟩,
   ⟨28710, 29624, 19980476, 23057041, 2, 0, 12816, ⟨7099829, 75, 1000000, 277347, 11952, 1000000⟩⟩,
   ⟨29624, 30863, 23057038, 27572598, 2, 0, 19098, ⟨7099650, 180, 1000000, 289298, 16624, 1000000⟩⟩,
   ⟨30863, 32455, 27572595, 33918277, 2, 0, 26944, ⟨7099199, 452, 1000000, 305921, 22107, 1000000⟩⟩,
   ⟨32455, 34369, 33918274, 42273873, 2, 0, 36030, ⟨7098067, 1133, 1000000, 328027, 27756, 1000000⟩⟩,
   ⟨34369, 36503, 42273870, 52391824, 1, 0, 45689, ⟨7095441, 2627, 1000000, 355782, 32576, 1000000⟩⟩,
   ⟨36503, 38707, 52391821, 63569611, 1, 0, 55102, ⟨7090120, 5322, 1000000, 388357, 35597, 1000000⟩⟩,
   ⟨38707, 40832, 63569608, 74901815, 1, 0, 63585, ⟨7080958, 9163, 1000000, 423953, 36369, 1000000⟩⟩,
   ⟨40832, 42777, 74901812, 85645818, 0, 0, 70781, ⟨7067449, 13510, 1000000, 460321, 35205, 1000000⟩⟩,
   ⟨42777, 44498, 85645815, 95382448, 0, 0, 76661, ⟨7049927, 17523, 1000000, 495525, 32808, 1000000⟩⟩,
   ⟨44498, 45996, 95382445, 103995164, 0, 0, 81384, ⟨7029241, 20687, 1000000, 528332, 29921, 1000000⟩⟩,
   ⟨45996, 47297, 103995161, 111558003, 0, 0, 85176, ⟨7006302, 22940, 1000000, 558252, 27085, 1000000⟩⟩,
   ⟨47297, 48433, 111558000, 118212681, 0, 0, 88255, ⟨6981863, 24440, 1000000, 585336, 24538, 1000000⟩⟩,
   ⟨48433, 49435, 118212678, 124114972, 0, 0, 90797, ⟨6956443, 25421, 1000000, 609873, 22366, 1000000⟩⟩,
   ⟨49435, 50332, 124114969, 129420535, 0, 0, 92934, ⟨6930277, 26167, 1000000, 632238, 20625, 1000000⟩⟩,
   ⟨50332, 51146, 129420532, 134250396, 0, 0, 94770, ⟨6903487, 26791, 1000000, 652862, 19231, 1000000⟩⟩,
   ⟨51146, 51896, 134250393, 138711665, 0, 0, 96377, ⟨6876035, 27453, 1000000, 672092, 18170, 1000000⟩⟩,
   ⟨51896, 52598, 138711662, 142895986, 0, 0, 97811, ⟨6847763, 28273, 1000000, 690261, 17413, 1000000⟩⟩,
   ⟨52598, 53265, 142895983, 146878606, 0, 1, 99115, ⟨6818446, 29318, 1000000, 707673, 16921, 1000000⟩⟩,
   ⟨53265, 53907, 146878603, 150717801, 0, 1, 100321, ⟨6787834, 30613, 1000000, 724593, 16645, 1000000⟩⟩,
   ⟨53907, 54534, 150717798, 154472497, 0, 1, 101453, ⟨6755545, 32290, 1000000, 741237, 16607, 1000000⟩⟩,
   ⟨54534, 55154, 154472494, 158190141, 0, 1, 102532, ⟨6721169, 34377, 1000000, 757843, 16773, 1000000⟩⟩,
   ⟨55154, 55775, 158190138, 161918584, 0, 1, 103575, ⟨6684171, 36999, 1000000, 774615, 17161, 1000000⟩⟩,
   ⟨55775, 56404, 161918581, 165700062, 0, 1, 104597, ⟨6643944, 40228, 1000000, 791775, 17763, 1000000⟩⟩,
   ⟨56404, 57047, 165700059, 169571199, 0, 1, 105610, ⟨6599809, 44136, 1000000, 809537, 18569, 1000000⟩⟩,
   ⟨57047, 57711, 169571196, 173575131, 0, 1, 106623, ⟨6550867, 48943, 1000000, 828105, 19625, 1000000⟩⟩,
   ⟨57711, 58400, 173575128, 177737537, 0, 1, 107647, ⟨6496268, 54600, 1000000, 847729, 20864, 1000000⟩⟩,
   ⟨58400, 59117, 177737534, 182078850, 0, 1, 108686, ⟨6435086, 61183, 1000000, 868592, 22274, 1000000⟩⟩,
   ⟨59117, 59861, 182078847, 186596292, 0, 1, 109745, ⟨6366602, 68485, 1000000, 890865, 23744, 1000000⟩⟩,
   ⟨59861, 60624, 186596289, 191245618, 0, 1, 110820, ⟨6290730, 75873, 1000000, 914608, 25045, 1000000⟩⟩,
   ⟨60624, 61385, 191245615, 195903746, 0, 1, 111899, ⟨6208958, 81773, 1000000, 939652, 25711, 1000000⟩⟩,
   ⟨61385, 62109, 195903743, 200360190, 0, 1, 112955, ⟨6125071, 83888, 1000000, 965362, 25168, 1000000⟩⟩,
   ⟨62109, 62320, 200360187, 201664456, 0, 1, 113942, ⟨6099436, 25636, 1000000, 990529, 7470, 1000000⟩⟩]

theorem cellsL_chain : chain 27315 cellsL 62320 = true := by decide +kernel

theorem cellsL_ok : allOk Cell.okL cellsL = true := by decide +kernel

def cellsV : List Cell :=
  [⟨27315, 29561, 15723457, 22837897, 2, 0, 248755, ⟨611, 2110, 1000000, 1326731, 150205, 1000000⟩⟩,
   ⟨29561, 31270, 22837894, 29138695, 2, 0, 253157, ⟨2720, 4490, 1000000, 1226894, 99838, 1000000⟩⟩,
   ⟨31270, 32644, 29138692, 34709635, 2, 0, 256319, ⟨7209, 7306, 1000000, 1154209, 72686, 1000000⟩⟩,
   ⟨32644, 33817, 34709632, 39788767, 1, 0, 258787, ⟨14514, 10550, 1000000, 1096829, 57381, 1000000⟩⟩,
   ⟨33817, 34870, 39788764, 44578730, 1, 0, 260841, ⟨25063, 14430, 1000000, 1048609, 48221, 1000000⟩⟩,
   ⟨34870, 35857, 44578727, 49248621, 1, 0, 262641, ⟨39492, 19335, 1000000, 1005982, 42628, 1000000⟩⟩,
   ⟨35857, 36814, 49248618, 53927975, 1, 0, 264281, ⟨58826, 25752, 1000000, 966833, 39150, 1000000⟩⟩,
   ⟨36814, 37770, 53927972, 58737430, 1, 0, 265825, ⟨84577, 34454, 1000000, 929706, 37128, 1000000⟩⟩,
   ⟨37770, 38745, 58737427, 63767879, 1, 0, 267310, ⟨119030, 46322, 1000000, 893728, 35979, 1000000⟩⟩,
   ⟨38745, 39753, 63767876, 69087885, 1, 0, 268758, ⟨165351, 62478, 1000000, 858388, 35341, 1000000⟩⟩,
   ⟨39753, 40805, 69087882, 74754951, 0, 0, 270183, ⟨227828, 84464, 1000000, 823367, 35022, 1000000⟩⟩,
   ⟨40805, 41904, 74754948, 80785240, 0, 0, 271585, ⟨312291, 113630, 1000000, 788659, 34709, 1000000⟩⟩,
   ⟨41904, 43051, 80785237, 87182976, 0, 0, 272962, ⟨425919, 151814, 1000000, 754326, 34334, 1000000⟩⟩,
   ⟨43051, 44242, 87182973, 93922486, 0, 0, 274307, ⟨577732, 200445, 1000000, 720559, 33768, 1000000⟩⟩,
   ⟨44242, 45471, 93922483, 100963963, 0, 0, 275614, ⟨778176, 260944, 1000000, 687570, 32990, 1000000⟩⟩,
   ⟨45471, 46731, 100963960, 108259404, 0, 0, 276875, ⟨1039119, 334489, 1000000, 655549, 32022, 1000000⟩⟩,
   ⟨46731, 48011, 108259401, 115735653, 0, 0, 278081, ⟨1373606, 420585, 1000000, 624742, 30808, 1000000⟩⟩,
   ⟨48011, 49299, 115735650, 123312267, 0, 0, 279227, ⟨1794190, 518009, 1000000, 595356, 29387, 1000000⟩⟩,
   ⟨49299, 50582, 123312264, 130902466, 0, 0, 280307, ⟨2312198, 624041, 1000000, 567573, 27784, 1000000⟩⟩,
   ⟨50582, 51845, 130902463, 138407987, 0, 0, 281314, ⟨2936238, 733581, 1000000, 541566, 26008, 1000000⟩⟩,
   ⟨51845, 53068, 138407984, 145701664, 0, 1, 282242, ⟨3669818, 836876, 1000000, 517562, 24005, 1000000⟩⟩,
   ⟨53068, 54230, 145701661, 152651412, 0, 1, 283084, ⟨4506693, 923351, 1000000, 495758, 21805, 1000000⟩⟩,
   ⟨54230, 55312, 152651409, 159138305, 0, 1, 283836, ⟨5430043, 983514, 1000000, 476280, 19479, 1000000⟩⟩,
   ⟨55312, 56301, 159138302, 165080483, 0, 1, 284499, ⟨6413555, 1012924, 1000000, 459130, 17151, 1000000⟩⟩,
   ⟨56301, 57192, 165080480, 170444976, 0, 1, 285077, ⟨7426477, 1013414, 1000000, 444187, 14944, 1000000⟩⟩,
   ⟨57192, 57985, 170444973, 175229423, 0, 1, 285577, ⟨8439890, 988296, 1000000, 431275, 12913, 1000000⟩⟩,
   ⟨57985, 58684, 175229420, 179455824, 0, 1, 286008, ⟨9428184, 943046, 1000000, 420182, 11094, 1000000⟩⟩,
   ⟨58684, 59293, 179455821, 183146234, 0, 1, 286375, ⟨10371228, 879794, 1000000, 410731, 9452, 1000000⟩⟩,
   ⟨59293, 59818, 183146231, 186334805, 0, 1, 286687, ⟨11251021, 804221, 1000000, 402738, 7994, 1000000⟩⟩,
   ⟨59818, 60267, 186334802, 189067919, 0, 1, 286950, ⟨12055241, 723009, 1000000, 396012, 6727, 1000000⟩⟩,
   ⟨60267, 60647, 189067916, 191386070, 0, 1, 287171, ⟨12778249, 638315, 1000000, 390398, 5615, 1000000⟩⟩,
   ⟨60647, 60967, 191386067, 193342237, 0, 1, 287354, ⟨13416562, 556995, 1000000, 385725, 4674, 1000000⟩⟩,
   ⟨60967, 61236, 193342234, 194989805, 0, 1, 287508, ⟨13973555, 482428, 1000000, 381834, 3892, 1000000⟩⟩,
   ⟨61236, 61461, 194989802, 196370308, 0, 1, 287635, ⟨14455981, 413756, 1000000, 378605, 3230, 1000000⟩⟩,
   ⟨61461, 61649, 196370305, 197525620, 0, 1, 287741, ⟨14869736, 353036, 1000000, 375926, 2680, 1000000⟩⟩,
   ⟨61649, 61805, 197525617, 198485629, 0, 1, 287829, ⟨15222770, 298108, 1000000, 373715, 2212, 1000000⟩⟩,
   ⟨61805, 61935, 198485626, 199286620, 0, 1, 287902, ⟨15520876, 252061, 1000000, 371881, 1835, 1000000⟩⟩,
   ⟨61935, 62043, 199286617, 199952769, 0, 1, 287962, ⟨15772935, 211957, 1000000, 370364, 1518, 1000000⟩⟩,
   ⟨62043, 62133, 199952766, 200508407, 0, 1, 288012, ⟨15984890, 178422, 1000000, 369103, 1262, 1000000⟩⟩,
   ⟨62133, 62208, 200508404, 200971805, 0, 1, 288054, ⟨16163310, 149942, 1000000, 368055, 1049, 1000000⟩⟩,
   ⟨62208, 62270, 200971802, 201355141, 0, 1, 288088, ⟨16313250, 124823, 1000000, 367191, 865, 1000000⟩⟩,
   ⟨62270, 62320, 201355138, 201664456, 0, 1, 288116, ⟨16438071, 101241, 1000000, 366495, 697, 1000000⟩⟩]

theorem cellsV_chain : chain 27315 cellsV 62320 = true := by decide +kernel

theorem cellsV_ok : allOk Cell.okV cellsV = true := by decide +kernel

def cellsS1 : List Cell :=
  [⟨27315, 30315, 15723457, 25527755, 0, 0, 0, ⟨7099743, 221, 1000000, 259596, 38912, 1000000⟩⟩,
   ⟨30315, 33315, 25527752, 37580529, 0, 0, 0, ⟨7098793, 951, 1000000, 298507, 41828, 1000000⟩⟩,
   ⟨33315, 36315, 37580526, 51470336, 0, 0, 0, ⟨7095754, 3040, 1000000, 340334, 45082, 1000000⟩⟩,
   ⟨36315, 39315, 51470333, 66762189, 0, 0, 0, ⟨7087981, 7774, 1000000, 385415, 48732, 1000000⟩⟩,
   ⟨39315, 42315, 66762186, 83066300, 0, 0, 0, ⟨7071197, 16785, 1000000, 434146, 52844, 1000000⟩⟩,
   ⟨42315, 45315, 83066297, 100065801, 0, 0, 0, ⟨7039344, 31854, 1000000, 486989, 57499, 1000000⟩⟩,
   ⟨45315, 48315, 100065798, 117519496, 0, 0, 0, ⟨6984610, 54735, 1000000, 544487, 62798, 1000000⟩⟩,
   ⟨48315, 51315, 117519493, 135254785, 0, 0, 0, ⟨6897540, 87071, 1000000, 607284, 68865, 1000000⟩⟩,
   ⟨51315, 54084, 135254782, 151777229, 0, 0, 0, ⟨6778964, 118577, 1000000, 676148, 69742, 1000000⟩⟩,
   ⟨54084, 56254, 151777226, 164797810, 0, 0, 0, ⟨6653796, 125169, 1000000, 745889, 59378, 1000000⟩⟩,
   ⟨56254, 57925, 164797807, 174867060, 0, 0, 0, ⟨6534335, 119462, 1000000, 805266, 48888, 1000000⟩⟩,
   ⟨57925, 59200, 174867057, 182582127, 0, 0, 0, ⟨6427704, 106632, 1000000, 854153, 39330, 1000000⟩⟩,
   ⟨59200, 60169, 182582124, 188470857, 0, 0, 0, ⟨6336684, 91021, 1000000, 893482, 31150, 1000000⟩⟩,
   ⟨60169, 60907, 188470854, 192975155, 0, 0, 0, ⟨6261056, 75629, 1000000, 924631, 24496, 1000000⟩⟩,
   ⟨60907, 61471, 192975152, 196431718, 0, 0, 0, ⟨6199313, 61744, 1000000, 949126, 19190, 1000000⟩⟩,
   ⟨61471, 61906, 196431715, 199107857, 0, 0, 0, ⟨6149218, 50096, 1000000, 968315, 15087, 1000000⟩⟩,
   ⟨61906, 62245, 199107854, 201200541, 0, 0, 0, ⟨6108611, 40608, 1000000, 983401, 11936, 1000000⟩⟩,
   ⟨62245, 62320, 201200538, 201664456, 0, 0, 0, ⟨6099436, 9176, 1000000, 995336, 2663, 1000000⟩⟩]

theorem cellsS1_chain : chain 27315 cellsS1 62320 = true := by decide +kernel

theorem cellsS1_ok : allOk Cell.okS1 cellsS1 = true := by decide +kernel

def cellsS2 : List Cell :=
  [⟨27315, 29815, 15723457, 23727729, 0, 0, 0, ⟨611, 2559, 1000000, 1311168, 165768, 1000000⟩⟩,
   ⟨29815, 32315, 23727726, 33337108, 0, 0, 0, ⟨3169, 9183, 1000000, 1171050, 140119, 1000000⟩⟩,
   ⟨32315, 34815, 33337105, 44323474, 0, 0, 0, ⟨12351, 26245, 1000000, 1051055, 119996, 1000000⟩⟩,
   ⟨34815, 37315, 44323471, 56432430, 0, 0, 0, ⟨38595, 62823, 1000000, 947139, 103917, 1000000⟩⟩,
   ⟨37315, 39815, 56432427, 69418763, 0, 0, 0, ⟨101417, 130808, 1000000, 856272, 90868, 1000000⟩⟩,
   ⟨39815, 42315, 69418760, 83066300, 0, 0, 0, ⟨232224, 243878, 1000000, 776143, 80130, 1000000⟩⟩,
   ⟨42315, 44815, 83066297, 97195391, 0, 0, 0, ⟨476101, 416347, 1000000, 704953, 71191, 1000000⟩⟩,
   ⟨44815, 47315, 97195388, 111663103, 0, 0, 0, ⟨892447, 662225, 1000000, 641287, 63667, 1000000⟩⟩,
   ⟨47315, 49815, 111663100, 126360275, 0, 0, 0, ⟨1554671, 994755, 1000000, 584010, 57278, 1000000⟩⟩,
   ⟨49815, 52315, 126360272, 141208206, 0, 0, 0, ⟨2549424, 1426516, 1000000, 532208, 51803, 1000000⟩⟩,
   ⟨52315, 54458, 141208203, 154017116, 0, 0, 0, ⟨3975938, 1651050, 1000000, 491589, 40620, 1000000⟩⟩,
   ⟨54458, 56239, 154017113, 164707601, 0, 0, 0, ⟨5626987, 1732620, 1000000, 460187, 31403, 1000000⟩⟩,
   ⟨56239, 57725, 164707598, 173659626, 0, 0, 0, ⟨7359605, 1735244, 1000000, 435469, 24719, 1000000⟩⟩,
   ⟨57725, 58966, 173659623, 181163656, 0, 0, 0, ⟨9094847, 1676855, 1000000, 415781, 19689, 1000000⟩⟩,
   ⟨58966, 59992, 181163653, 187393245, 0, 0, 0, ⟨10771700, 1559795, 1000000, 400120, 15662, 1000000⟩⟩,
   ⟨59992, 60832, 187393242, 192516501, 0, 0, 0, ⟨12331494, 1404872, 1000000, 387690, 12431, 1000000⟩⟩,
   ⟨60832, 61519, 192516498, 196726551, 0, 0, 0, ⟨13736364, 1241570, 1000000, 377777, 9914, 1000000⟩⟩,
   ⟨61519, 62084, 196726548, 200205834, 0, 0, 0, ⟨14977933, 1088036, 1000000, 369789, 7989, 1000000⟩⟩,
   ⟨62084, 62320, 200205831, 201664456, 0, 0, 0, ⟨16065967, 473345, 1000000, 366495, 3295, 1000000⟩⟩]

theorem cellsS2_chain : chain 27315 cellsS2 62320 = true := by decide +kernel

theorem cellsS2_ok : allOk Cell.okS2 cellsS2 = true := by decide +kernel

def cellsLd : List Cell :=
  [⟨27315, 28723, 15723457, 20022671, 2, 0, 92910, ⟨7099902, 62, 1000000, 259596, 17920, 1000000⟩⟩,
   ⟨28723, 29867, 20022668, 23911957, 2, 0, 100696, ⟨7099802, 101, 1000000, 277515, 15005, 1000000⟩⟩,
   ⟨29867, 30819, 23911954, 27405685, 2, 0, 106678, ⟨7099658, 145, 1000000, 292519, 12804, 1000000⟩⟩,
   ⟨30819, 31630, 27405682, 30556702, 2, 0, 111452, ⟨7099472, 187, 1000000, 305322, 11143, 1000000⟩⟩,
   ⟨31630, 32336, 30556699, 33424009, 2, 0, 115387, ⟨7099244, 229, 1000000, 316464, 9881, 1000000⟩⟩,
   ⟨32336, 32963, 33424006, 36062702, 1, 0, 118720, ⟨7098976, 269, 1000000, 326344, 8922, 1000000⟩⟩,
   ⟨32963, 33530, 36062699, 38520108, 1, 0, 121611, ⟨7098668, 309, 1000000, 335265, 8188, 1000000⟩⟩,
   ⟨33530, 34052, 38520105, 40839601, 1, 0, 124176, ⟨7098317, 352, 1000000, 343452, 7642, 1000000⟩⟩,
   ⟨34052, 34540, 40839598, 43055394, 1, 0, 126494, ⟨7097921, 397, 1000000, 351093, 7236, 1000000⟩⟩,
   ⟨34540, 35004, 43055391, 45202881, 1, 0, 128629, ⟨7097474, 448, 1000000, 358328, 6963, 1000000⟩⟩,
   ⟨35004, 35452, 45202878, 47312364, 1, 0, 130630, ⟨7096968, 507, 1000000, 365290, 6802, 1000000⟩⟩,
   ⟨35452, 35891, 47312361, 49412399, 1, 0, 132535, ⟨7096393, 576, 1000000, 372091, 6742, 1000000⟩⟩,
   ⟨35891, 36327, 49412396, 51528992, 1, 0, 134375, ⟨7095734, 660, 1000000, 378832, 6771, 1000000⟩⟩,
   ⟨36327, 36766, 51528989, 53689941, 1, 0, 136177, ⟨7094973, 762, 1000000, 385602, 6896, 1000000⟩⟩,
   ⟨36766, 37214, 53689938, 55924651, 1, 0, 137965, ⟨7094082, 892, 1000000, 392497, 7119, 1000000⟩⟩,
   ⟨37214, 37678, 55924648, 58269094, 1, 0, 139767, ⟨7093026, 1057, 1000000, 399615, 7462, 1000000⟩⟩,
   ⟨37678, 38166, 58269091, 60766043, 1, 0, 141607, ⟨7091751, 1276, 1000000, 407076, 7948, 1000000⟩⟩,
   ⟨38166, 38687, 60766040, 63465328, 1, 0, 143514, ⟨7090185, 1567, 1000000, 415023, 8599, 1000000⟩⟩,
   ⟨38687, 39250, 63465325, 66418852, 1, 0, 145509, ⟨7088226, 1960, 1000000, 423621, 9428, 1000000⟩⟩,
   ⟨39250, 39869, 66418849, 69707276, 1, 0, 147629, ⟨7085716, 2511, 1000000, 433048, 10532, 1000000⟩⟩,
   ⟨39869, 40559, 69707273, 73420009, 0, 0, 149905, ⟨7082421, 3296, 1000000, 443579, 11952, 1000000⟩⟩,
   ⟨40559, 41339, 73420006, 77671927, 0, 0, 152375, ⟨7077981, 4441, 1000000, 455530, 13785, 1000000⟩⟩,
   ⟨41339, 42233, 77671924, 82610143, 0, 0, 155079, ⟨7071825, 6157, 1000000, 469314, 16172, 1000000⟩⟩,
   ⟨42233, 43267, 82610140, 88398424, 0, 0, 158049, ⟨7063059, 8767, 1000000, 485485, 19218, 1000000⟩⟩,
   ⟨43267, 44469, 88398421, 95216874, 0, 0, 161309, ⟨7050274, 12786, 1000000, 504702, 23065, 1000000⟩⟩,
   ⟨44469, 45860, 95216871, 103208710, 0, 0, 164844, ⟨7031357, 18918, 1000000, 527766, 27715, 1000000⟩⟩,
   ⟨45860, 47442, 103208707, 112404972, 0, 0, 168588, ⟨7003423, 27935, 1000000, 555480, 32942, 1000000⟩⟩,
   ⟨47442, 49181, 112404969, 122616191, 0, 0, 172402, ⟨6963252, 40173, 1000000, 588421, 38083, 1000000⟩⟩,
   ⟨49181, 51003, 122616188, 133400949, 0, 0, 176100, ⟨6908414, 54839, 1000000, 626503, 42176, 1000000⟩⟩,
   ⟨51003, 52809, 133400946, 144155156, 0, 1, 179501, ⟨6838755, 69660, 1000000, 668678, 44308, 1000000⟩⟩,
   ⟨52809, 54503, 144155153, 154286741, 0, 1, 182480, ⟨6757199, 81557, 1000000, 712985, 44030, 1000000⟩⟩,
   ⟨54503, 56022, 154286738, 163402909, 0, 1, 184999, ⟨6668713, 88487, 1000000, 757014, 41691, 1000000⟩⟩,
   ⟨56022, 57338, 163402906, 171325097, 0, 1, 187075, ⟨6578791, 89923, 1000000, 798704, 37945, 1000000⟩⟩,
   ⟨57338, 58453, 171325094, 178058082, 0, 1, 188766, ⟨6491901, 86892, 1000000, 836648, 33572, 1000000⟩⟩,
   ⟨58453, 59386, 178058079, 183710550, 0, 1, 190137, ⟨6410929, 80973, 1000000, 870219, 29156, 1000000⟩⟩,
   ⟨59386, 60163, 183710547, 188434312, 0, 1, 191251, ⟨6337276, 73654, 1000000, 899374, 25062, 1000000⟩⟩,
   ⟨60163, 60811, 188434309, 192388117, 0, 1, 192162, ⟨6271218, 66059, 1000000, 924435, 21467, 1000000⟩⟩,
   ⟨60811, 61353, 192388114, 195707379, 0, 1, 192912, ⟨6212525, 58694, 1000000, 945901, 18366, 1000000⟩⟩,
   ⟨61353, 61810, 195707376, 198516419, 0, 1, 193537, ⟨6160465, 52061, 1000000, 964266, 15785, 1000000⟩⟩,
   ⟨61810, 62200, 198516416, 200922360, 0, 1, 194066, ⟨6114083, 46383, 1000000, 980050, 13694, 1000000⟩⟩,
   ⟨62200, 62320, 200922357, 201664456, 0, 1, 194227, ⟨6099436, 14648, 1000000, 993743, 4256, 1000000⟩⟩]

theorem cellsLd_chain : chain 27315 cellsLd 62320 = true := by decide +kernel

theorem cellsLd_ok : allOk Cell.okLd cellsLd = true := by decide +kernel

def cellsVu : List Cell :=
  [⟨27315, 27989, 15723457, 17712781, 3, 0, 252008, ⟨611, 374, 1000000, 1429329, 47607, 1000000⟩⟩,
   ⟨27989, 29043, 17712778, 21075611, 2, 0, 254161, ⟨984, 989, 1000000, 1359312, 70018, 1000000⟩⟩,
   ⟨29043, 30543, 21075608, 26369505, 2, 0, 257302, ⟨1972, 2864, 1000000, 1267999, 91314, 1000000⟩⟩,
   ⟨30543, 32521, 26369502, 34193743, 2, 0, 261352, ⟨4835, 8836, 1000000, 1160465, 107535, 1000000⟩⟩,
   ⟨32521, 34891, 34193740, 44676334, 2, 0, 266047, ⟨13670, 26170, 1000000, 1047677, 112789, 1000000⟩⟩,
   ⟨34891, 37451, 44676331, 57118424, 1, 0, 270879, ⟨39839, 66601, 1000000, 941884, 105794, 1000000⟩⟩,
   ⟨37451, 39963, 57118421, 70210230, 1, 0, 275319, ⟨106439, 136559, 1000000, 851249, 90636, 1000000⟩⟩,
   ⟨39963, 42254, 70210227, 82726914, 1, 0, 279048, ⟨242997, 225372, 1000000, 777985, 73265, 1000000⟩⟩,
   ⟨42254, 44253, 82726911, 93985141, 0, 0, 282013, ⟨468368, 311888, 1000000, 720256, 57730, 1000000⟩⟩,
   ⟨44253, 45964, 93985138, 103810040, 0, 0, 284319, ⟨780255, 381080, 1000000, 674832, 45425, 1000000⟩⟩,
   ⟨45964, 47422, 103810037, 112288104, 0, 0, 286115, ⟨1161334, 428439, 1000000, 638711, 36122, 1000000⟩⟩,
   ⟨47422, 48669, 112288101, 119600303, 0, 0, 287534, ⟨1589772, 456339, 1000000, 609535, 29177, 1000000⟩⟩,
   ⟨48669, 49745, 119600300, 125946402, 0, 0, 288674, ⟨2046110, 470078, 1000000, 585536, 24000, 1000000⟩⟩,
   ⟨49745, 50682, 125946399, 131495606, 0, 0, 289608, ⟨2516187, 473633, 1000000, 565467, 20070, 1000000⟩⟩,
   ⟨50682, 51507, 131495603, 136396503, 0, 0, 290387, ⟨2989819, 471272, 1000000, 548401, 17067, 1000000⟩⟩,
   ⟨51507, 52240, 136396500, 140761123, 0, 0, 291049, ⟨3461090, 464735, 1000000, 533690, 14712, 1000000⟩⟩,
   ⟨52240, 52898, 140761120, 144686472, 0, 0, 291618, ⟨3925824, 456573, 1000000, 520832, 12859, 1000000⟩⟩,
   ⟨52898, 53494, 144686469, 148247401, 0, 1, 292115, ⟨4382396, 447618, 1000000, 509459, 11374, 1000000⟩⟩,
   ⟨53494, 54039, 148247398, 151507845, 0, 1, 292554, ⟨4830013, 439137, 1000000, 499278, 10182, 1000000⟩⟩,
   ⟨54039, 54542, 151507842, 154520436, 0, 1, 292947, ⟨5269148, 431756, 1000000, 490062, 9217, 1000000⟩⟩,
   ⟨54542, 55009, 154520433, 157320263, 0, 1, 293303, ⟨5700903, 424557, 1000000, 481657, 8406, 1000000⟩⟩,
   ⟨55009, 55446, 157320260, 159942688, 0, 1, 293628, ⟨6125458, 418758, 1000000, 473920, 7738, 1000000⟩⟩,
   ⟨55446, 55858, 159942685, 162417278, 0, 1, 293926, ⟨6544214, 414499, 1000000, 466737, 7184, 1000000⟩⟩,
   ⟨55858, 56249, 162417275, 164767740, 0, 1, 294204, ⟨6958712, 411649, 1000000, 460017, 6721, 1000000⟩⟩,
   ⟨56249, 56622, 164767737, 167011873, 0, 1, 294463, ⟨7370360, 409816, 1000000, 453692, 6326, 1000000⟩⟩,
   ⟨56622, 56981, 167011870, 169173582, 0, 1, 294708, ⟨7780174, 410699, 1000000, 447684, 6009, 1000000⟩⟩,
   ⟨56981, 57328, 169173579, 171264804, 0, 1, 294940, ⟨8190872, 412575, 1000000, 441948, 5737, 1000000⟩⟩,
   ⟨57328, 57666, 171264801, 173303561, 0, 1, 295162, ⟨8603446, 417041, 1000000, 436427, 5522, 1000000⟩⟩,
   ⟨57666, 57997, 173303558, 175301903, 0, 1, 295376, ⟨9020485, 423310, 1000000, 431082, 5346, 1000000⟩⟩,
   ⟨57997, 58323, 175301900, 177271936, 0, 1, 295583, ⟨9443793, 431727, 1000000, 425878, 5205, 1000000⟩⟩,
   ⟨58323, 58646, 177271933, 179225818, 0, 1, 295785, ⟨9875518, 442643, 1000000, 420778, 5101, 1000000⟩⟩,
   ⟨58646, 58967, 179225815, 181169715, 0, 1, 295983, ⟨10318159, 454984, 1000000, 415766, 5013, 1000000⟩⟩,
   ⟨58967, 59289, 181169712, 183121967, 0, 1, 296178, ⟨10773141, 471920, 1000000, 410792, 4975, 1000000⟩⟩,
   ⟨59289, 59613, 183121964, 185088882, 0, 1, 296372, ⟨11245059, 490975, 1000000, 405842, 4951, 1000000⟩⟩,
   ⟨59613, 59941, 185088879, 187082922, 0, 1, 296565, ⟨11736032, 513982, 1000000, 400885, 4958, 1000000⟩⟩,
   ⟨59941, 60275, 187082919, 189116672, 0, 1, 296759, ⟨12250013, 541422, 1000000, 395893, 4993, 1000000⟩⟩,
   ⟨60275, 60617, 189116669, 191202876, 0, 1, 296954, ⟨12791434, 573835, 1000000, 390839, 5055, 1000000⟩⟩,
   ⟨60617, 60969, 191202873, 193354475, 0, 1, 297152, ⟨13365267, 611828, 1000000, 385696, 5144, 1000000⟩⟩,
   ⟨60969, 61333, 193354472, 195584673, 0, 1, 297355, ⟨13977093, 656106, 1000000, 380439, 5258, 1000000⟩⟩,
   ⟨61333, 61711, 195584670, 197907012, 0, 1, 297562, ⟨14633197, 707488, 1000000, 375046, 5394, 1000000⟩⟩,
   ⟨61711, 62105, 197907009, 200335491, 0, 1, 297775, ⟨15340683, 766945, 1000000, 369495, 5552, 1000000⟩⟩,
   ⟨62105, 62320, 200335488, 201664456, 0, 1, 297995, ⟨16107626, 431686, 1000000, 366495, 3001, 1000000⟩⟩]

theorem cellsVu_chain : chain 27315 cellsVu 62320 = true := by decide +kernel

theorem cellsVu_ok : allOk Cell.okVu cellsVu = true := by decide +kernel

def barsLH : List Bar :=
  [⟨1650, 1700, 62315, 62315, ⟨607156, 3026, 100000, 997821, 1, 1000000⟩⟩,
   ⟨1700, 1800, 62315, 62315, ⟨601107, 6050, 100000, 997821, 1, 1000000⟩⟩,
   ⟨1800, 1950, 62315, 62315, ⟨592032, 9076, 100000, 997821, 1, 1000000⟩⟩,
   ⟨1950, 2200, 62315, 62315, ⟨576908, 15125, 100000, 997821, 1, 1000000⟩⟩,
   ⟨2200, 2600, 62315, 62315, ⟨552710, 24199, 100000, 997821, 1, 1000000⟩⟩,
   ⟨2600, 3300, 62315, 62315, ⟨510362, 42349, 100000, 997821, 1, 1000000⟩⟩,
   ⟨3300, 4500, 62315, 62315, ⟨437767, 72596, 100000, 997821, 1, 1000000⟩⟩,
   ⟨4500, 6500, 62315, 62315, ⟨316775, 120993, 100000, 997821, 1, 1000000⟩⟩,
   ⟨6500, 8500, 62315, 62315, ⟨195783, 120993, 100000, 997821, 1, 1000000⟩⟩,
   ⟨8500, 10001, 62315, 62315, ⟨104978, 90806, 100000, 997821, 1, 1000000⟩⟩]

theorem barsLH_chain : chainP 1650 barsLH 10001 = true := by decide +kernel

theorem barsLH_ok : barsL 62315 eH1 barsLH = true := by decide +kernel

def barsLS : List Bar :=
  [⟨1650, 1700, 62315, 62315, ⟨607156, 3026, 100000, 997821, 1, 1000000⟩⟩,
   ⟨1700, 1800, 62315, 62315, ⟨601107, 6050, 100000, 997821, 1, 1000000⟩⟩,
   ⟨1800, 1950, 62315, 62315, ⟨592032, 9076, 100000, 997821, 1, 1000000⟩⟩,
   ⟨1950, 2200, 62315, 62315, ⟨576908, 15125, 100000, 997821, 1, 1000000⟩⟩,
   ⟨2200, 2600, 62315, 62315, ⟨552710, 24199, 100000, 997821, 1, 1000000⟩⟩,
   ⟨2600, 3300, 62315, 62315, ⟨510362, 42349, 100000, 997821, 1, 1000000⟩⟩,
   ⟨3300, 4500, 62315, 62315, ⟨437767, 72596, 100000, 997821, 1, 1000000⟩⟩,
   ⟨4500, 6500, 62315, 62315, ⟨316775, 120993, 100000, 997821, 1, 1000000⟩⟩,
   ⟨6500, 8500, 62315, 62315, ⟨195783, 120993, 100000, 997821, 1, 1000000⟩⟩,
   ⟨8500, 10001, 62315, 62315, ⟨104978, 90806, 100000, 997821, 1, 1000000⟩⟩]

theorem barsLS_chain : chainP 1650 barsLS 10001 = true := by decide +kernel

theorem barsLS_ok : barsL 62315 eS1 barsLS = true := by decide +kernel

def barsVH : List Bar :=
  [⟨1648, 1710, 62310, 62800, ⟨1648, 62, 100, 35987, 677, 100000⟩⟩,
   ⟨1701, 1794, 62800, 63500, ⟨1701, 93, 100, 35039, 949, 100000⟩⟩,
   ⟨1785, 1931, 63500, 64500, ⟨1785, 146, 100, 33720, 1320, 100000⟩⟩,
   ⟨1922, 2141, 64500, 65800, ⟨1922, 219, 100, 32066, 1655, 100000⟩⟩,
   ⟨2132, 2277, 65800, 66550, ⟨2132, 145, 100, 31141, 926, 100000⟩⟩,
   ⟨2268, 2425, 66550, 67300, ⟨2268, 157, 100, 30237, 905, 100000⟩⟩,
   ⟨2416, 2584, 67300, 68050, ⟨2416, 168, 100, 29353, 885, 100000⟩⟩,
   ⟨2575, 2755, 68050, 68800, ⟨2575, 180, 100, 28488, 866, 100000⟩⟩,
   ⟨2746, 2937, 68800, 69550, ⟨2746, 191, 100, 27641, 848, 100000⟩⟩,
   ⟨2928, 3131, 69550, 70300, ⟨2928, 203, 100, 26813, 829, 100000⟩⟩,
   ⟨3122, 3336, 70300, 71050, ⟨3122, 214, 100, 26002, 812, 100000⟩⟩,
   ⟨3327, 3553, 71050, 71800, ⟨3327, 226, 100, 25208, 795, 100000⟩⟩,
   ⟨3544, 3781, 71800, 72550, ⟨3544, 237, 100, 24431, 778, 100000⟩⟩,
   ⟨3772, 4021, 72550, 73300, ⟨3772, 249, 100, 23669, 763, 100000⟩⟩,
   ⟨4012, 4272, 73300, 74050, ⟨4012, 260, 100, 22923, 747, 100000⟩⟩,
   ⟨4263, 4534, 74050, 74800, ⟨4263, 271, 100, 22192, 732, 100000⟩⟩,
   ⟨4525, 4808, 74800, 75550, ⟨4525, 283, 100, 21475, 718, 100000⟩⟩,
   ⟨4799, 5094, 75550, 76300, ⟨4799, 295, 100, 20773, 703, 100000⟩⟩,
   ⟨5085, 5391, 76300, 77050, ⟨5085, 306, 100, 20084, 690, 100000⟩⟩,
   ⟨5382, 5699, 77050, 77800, ⟨5382, 317, 100, 19408, 677, 100000⟩⟩,
   ⟨5690, 6019, 77800, 78550, ⟨5690, 329, 100, 18746, 663, 100000⟩⟩,
   ⟨6010, 6350, 78550, 79300, ⟨6010, 340, 100, 18095, 652, 100000⟩⟩,
   ⟨6341, 6693, 79300, 80050, ⟨6341, 352, 100, 17457, 639, 100000⟩⟩,
   ⟨6684, 7047, 80050, 80800, ⟨6684, 363, 100, 16831, 627, 100000⟩⟩,
   ⟨7038, 7413, 80800, 81550, ⟨7038, 375, 100, 16217, 615, 100000⟩⟩,
   ⟨7404, 7790, 81550, 82300, ⟨7404, 386, 100, 15613, 605, 100000⟩⟩,
   ⟨7781, 8179, 82300, 83050, ⟨7781, 398, 100, 15021, 593, 100000⟩⟩,
   ⟨8170, 8579, 83050, 83800, ⟨8170, 409, 100, 14439, 583, 100000⟩⟩,
   ⟨8570, 8991, 83800, 84550, ⟨8570, 421, 100, 13867, 573, 100000⟩⟩,
   ⟨8982, 9414, 84550, 85300, ⟨8982, 432, 100, 13305, 563, 100000⟩⟩,
   ⟨9405, 9848, 85300, 86050, ⟨9405, 443, 100, 12754, 552, 100000⟩⟩,
   ⟨9839, 10007, 86050, 86320, ⟨9839, 168, 100, 12557, 198, 100000⟩⟩]

theorem barsVH_chain : chainT 62310 barsVH 86320 = true := by decide +kernel

theorem barsVH_ok : barsV eH2 barsVH = true := by decide +kernel

def barsVS : List Bar :=
  [⟨1648, 1710, 62310, 62800, ⟨1648, 62, 100, 35987, 677, 100000⟩⟩,
   ⟨1701, 1794, 62800, 63500, ⟨1701, 93, 100, 35039, 949, 100000⟩⟩,
   ⟨1785, 1931, 63500, 64500, ⟨1785, 146, 100, 33720, 1320, 100000⟩⟩,
   ⟨1922, 2141, 64500, 65800, ⟨1922, 219, 100, 32066, 1655, 100000⟩⟩,
   ⟨2132, 2277, 65800, 66550, ⟨2132, 145, 100, 31141, 926, 100000⟩⟩,
   ⟨2268, 2425, 66550, 67300, ⟨2268, 157, 100, 30237, 905, 100000⟩⟩,
   ⟨2416, 2584, 67300, 68050, ⟨2416, 168, 100, 29353, 885, 100000⟩⟩,
   ⟨2575, 2755, 68050, 68800, ⟨2575, 180, 100, 28488, 866, 100000⟩⟩,
   ⟨2746, 2937, 68800, 69550, ⟨2746, 191, 100, 27641, 848, 100000⟩⟩,
   ⟨2928, 3131, 69550, 70300, ⟨2928, 203, 100, 26813, 829, 100000⟩⟩,
   ⟨3122, 3336, 70300, 71050, ⟨3122, 214, 100, 26002, 812, 100000⟩⟩,
   ⟨3327, 3553, 71050, 71800, ⟨3327, 226, 100, 25208, 795, 100000⟩⟩,
   ⟨3544, 3781, 71800, 72550, ⟨3544, 237, 100, 24431, 778, 100000⟩⟩,
   ⟨3772, 4021, 72550, 73300, ⟨3772, 249, 100, 23669, 763, 100000⟩⟩,
   ⟨4012, 4272, 73300, 74050, ⟨4012, 260, 100, 22923, 747, 100000⟩⟩,
   ⟨4263, 4534, 74050, 74800, ⟨4263, 271, 100, 22192, 732, 100000⟩⟩,
   ⟨4525, 4808, 74800, 75550, ⟨4525, 283, 100, 21475, 718, 100000⟩⟩,
   ⟨4799, 5094, 75550, 76300, ⟨4799, 295, 100, 20773, 703, 100000⟩⟩,
   ⟨5085, 5391, 76300, 77050, ⟨5085, 306, 100, 20084, 690, 100000⟩⟩,
   ⟨5382, 5699, 77050, 77800, ⟨5382, 317, 100, 19408, 677, 100000⟩⟩,
   ⟨5690, 6019, 77800, 78550, ⟨5690, 329, 100, 18746, 663, 100000⟩⟩,
   ⟨6010, 6350, 78550, 79300, ⟨6010, 340, 100, 18095, 652, 100000⟩⟩,
   ⟨6341, 6693, 79300, 80050, ⟨6341, 352, 100, 17457, 639, 100000⟩⟩,
   ⟨6684, 7047, 80050, 80800, ⟨6684, 363, 100, 16831, 627, 100000⟩⟩,
   ⟨7038, 7413, 80800, 81550, ⟨7038, 375, 100, 16217, 615, 100000⟩⟩,
   ⟨7404, 7790, 81550, 82300, ⟨7404, 386, 100, 15613, 605, 100000⟩⟩,
   ⟨7781, 8179, 82300, 83050, ⟨7781, 398, 100, 15021, 593, 100000⟩⟩,
   ⟨8170, 8579, 83050, 83800, ⟨8170, 409, 100, 14439, 583, 100000⟩⟩,
   ⟨8570, 8991, 83800, 84550, ⟨8570, 421, 100, 13867, 573, 100000⟩⟩,
   ⟨8982, 9414, 84550, 85300, ⟨8982, 432, 100, 13305, 563, 100000⟩⟩,
   ⟨9405, 9848, 85300, 86050, ⟨9405, 443, 100, 12754, 552, 100000⟩⟩,
   ⟨9839, 10007, 86050, 86320, ⟨9839, 168, 100, 12557, 198, 100000⟩⟩]

theorem barsVS_chain : chainT 62310 barsVS 86320 = true := by decide +kernel

theorem barsVS_ok : barsV eS2 barsVS = true := by decide +kernel

def barsG : List Bar :=
  [⟨0, 2500, 27315, 27315, ⟨558759, 151241, 100000, 259596295, 1, 1000000000⟩⟩,
   ⟨2500, 5000, 27315, 27315, ⟨407519, 151241, 100000, 259596295, 1, 1000000000⟩⟩,
   ⟨5000, 7500, 27315, 27315, ⟨256279, 151241, 100000, 259596295, 1, 1000000000⟩⟩,
   ⟨7500, 10001, 27315, 27315, ⟨104978, 151302, 100000, 259596295, 1, 1000000000⟩⟩]

theorem barsG_chain : chainP 0 barsG 10001 = true := by decide +kernel

theorem barsG_ok : barsL 27315 eG barsG = true := by decide +kernel

def barsTop : List Bar :=
  [⟨0, 1653, 107315, 107315, ⟨0, 1653, 100, 137, 0, 42926⟩⟩]

theorem barsTop_chain : chainP 0 barsTop 1653 = true := by decide +kernel

theorem barsTop_ok : barsI 107315 eTop barsTop = true := by decide +kernel

def barsQh : List Bar :=
  [⟨0, 251, 107315, 107315, ⟨0, 251, 100, 137, 0, 42926⟩⟩,
   ⟨251, 502, 107315, 107315, ⟨251, 251, 100, 137, 0, 42926⟩⟩,
   ⟨502, 753, 107315, 107315, ⟨502, 251, 100, 137, 0, 42926⟩⟩,
   ⟨753, 1004, 107315, 107315, ⟨753, 251, 100, 137, 0, 42926⟩⟩]

theorem barsQh_chain : chainP 0 barsQh 1004 = true := by decide +kernel

theorem barsQh_ok : barsI 107315 eQh barsQh = true := by decide +kernel

def barsQs : List Bar :=
  [⟨0, 251, 107315, 107315, ⟨0, 251, 100, 137, 0, 42926⟩⟩,
   ⟨251, 502, 107315, 107315, ⟨251, 251, 100, 137, 0, 42926⟩⟩,
   ⟨502, 753, 107315, 107315, ⟨502, 251, 100, 137, 0, 42926⟩⟩,
   ⟨753, 1004, 107315, 107315, ⟨753, 251, 100, 137, 0, 42926⟩⟩]

theorem barsQs_chain : chainP 0 barsQs 1004 = true := by decide +kernel

theorem barsQs_ok : barsI 107315 eQs barsQs = true := by decide +kernel

def barsS19 : List Bar :=
  [⟨0, 10001, 107315, 107315, ⟨0, 10001, 100, 137, 0, 42926⟩⟩]

theorem barsS19_chain : chainP 0 barsS19 10001 = true := by decide +kernel

theorem barsS19_ok : barsI 107315 eS19 barsS19 = true := by decide +kernel

end PyX.Kron
