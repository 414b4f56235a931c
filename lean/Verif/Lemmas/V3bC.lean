import Verif.Lemmas.V3bJob

/-!
# The volume from pressure and enthalpy in subregion 3b, part C of the certificate
-/

namespace PyX.Kron.V3b

set_option Elab.async false

def t64 : CTree :=
  .sy (.out ⟨496, 16, 1948, 3632, 16, 5282, ⟨[[(0, 25680118422142976), (0, 1900843956219522), (19524557671, 0)],
    [(27703817602596565, 0), (0, 3772968197186), (38004127, 0)], [(0, 33490424271371), (0, 69373831), (26472, 0)]],
    2, 2⟩, ⟨[[(0, 28724215771922432), (0, 4344392086494269), (72124048917, 0)]], 2, 2⟩, 72057594037927936,
    323399868651155, 19013665147494, ⟨[], 0, 0⟩, 0, 0, 0, lc0⟩ 1 1 195432048872) (.sy (.out ⟨654, 16, 2621, 7323, 16,
    10718, ⟨[[(0, 31164465039892480), (0, 1269126571195086), (6239706046, 0)], [(35370678792451785, 0), (0,
    2520125721656), (11225181, 0)], [(0, 45090994332795), (0, 33735500), (8270, 0)]], 2, 2⟩, ⟨[[(22327543311237120,
    0), (0, 4353135037765585), (35910141126, 0)]], 2, 2⟩, 72057594037927936, 419086502786020, 4694111727396, ⟨[], 0,
    0⟩, 0, 0, 0, lc0⟩ 1 1 145716780809) (.out ⟨662, 16, 2690, 7354, 16, 10807, ⟨[[(0, 20103997274095616), (0,
    1296232415284268), (6151740401, 0)], [(35006238312833518, 0), (0, 2575494865978), (10323838, 0)], [(0,
    46293331379910), (0, 26324249), (8043, 0)]], 2, 2⟩, ⟨[[(0, 23881022655299584), (0, 4353153957956597),
    (35762201339, 0)]], 2, 2⟩, 72057594037927936, 433046560087554, 4655454424903, ⟨[], 0, 0⟩, 0, 0, 0, lc0⟩ 1 1
    118510810180))
theorem c64 : checkR job con0 true ⟨7, 9, 7, 9, 13, 17⟩ 1 28336 t64 573 21 1280 30243 251 32000 = true := by decide +kernel

def t65 : CTree :=
  .sy (.sy (.out ⟨1022, 16, 4245, 7384, 16, 10897, ⟨[[(11309159476871168, 0), (0, 1993501170729084), (9122133447,
    0)], [(27382233166914085, 0), (0, 2024017698235), (6998228, 0)], [(0, 18844366155807), (0, 14998114), (2313,
    0)]], 2, 2⟩, ⟨[[(32829271707156480, 0), (0, 4353425214132450), (35617541248, 0)]], 2, 2⟩, 72057594037927936,
    91735772035341, 4617540529014, ⟨[], 0, 0⟩, 0, 0, 0, lc0⟩ 1 1 109685790136) (.out ⟨1030, 16, 4338, 7415, 16,
    10987, ⟨[[(28122303623675904, 0), (0, 2028046728677265), (8854521886, 0)], [(26945517499712024, 0), (0,
    2061749440387), (5999288, 0)], [(0, 19264331857481), (0, 13089048), (2092, 0)]], 2, 2⟩, ⟨[[(0, 666239621332992),
    (0, 4353546379027079), (35472841619, 0)]], 2, 2⟩, 72057594037927936, 94885057511057, 4579932335462, ⟨[], 0, 0⟩,
    0, 0, 0, lc0⟩ 1 1 85157632232)) (.sx (.sy (.out ⟨1411, 16, 6044, 7445, 16, 11077, ⟨[[(0, 24076387675209728), (0,
    2783500866668665), (11551625696, 0)], [(18335271829255436, 0), (0, 1432327402042), (3275102, 0)], [(0,
    6818083512017), (0, 5528927), (482, 0)]], 2, 2⟩, ⟨[[(19969419838554112, 0), (0, 4353521086676340), (35328132423,
    0)]], 2, 2⟩, 72057594037927936, 23828752284547, 4542629939558, ⟨[], 0, 0⟩, 0, 0, 0, lc0⟩ 1 1 67862645100) (.sy
    (.out ⟨2097, 16, 9079, 14951, 16, 22312, ⟨[[(15828954710900736, 0), (0, 2084244818879989), (4124669873, 0)],
    [(26732925808333245, 0), (0, 1074132901390), (962253, 0)], [(0, 10244821000670), (0, 3905754), (147, 0)]], 2, 2⟩,
    ⟨[[(5263707049164800, 0), (0, 4357900419343931), (17627977345, 0)]], 2, 2⟩, 72057594037927936, 25417332063827,
    1128729879069, ⟨[], 0, 0⟩, 0, 0, 0, lc0⟩ 1 1 51987221779) (.out ⟨2106, 16, 9182, 14982, 16, 22403,
    ⟨[[(24630601225273344, 0), (0, 2103778135437395), (4018881645, 0)], [(26491104491246571, 0), (0, 1085436964890),
    (781986, 0)], [(0, 10362994600480), (0, 3812982), (125, 0)]], 2, 2⟩, ⟨[[(0, 26709766291324928), (0,
    4357957524554007), (17592484668, 0)]], 2, 2⟩, 72057594037927936, 25887277353107, 1124172163268, ⟨[], 0, 0⟩, 0, 0,
    0, lc0⟩ 1 1 41668785547))) (.sy (.sy (.out ⟨2107, 16, 8930, 14890, 16, 22131, ⟨[[(8928927550078976, 0), (0,
    2102941595009938), (4388327537, 0)], [(26522988086821553, 0), (0, 1059009729915), (1313829, 0)], [(0,
    9762174619350), (0, 1793893), (296, 0)]], 2, 2⟩, ⟨[[(18699443624214528, 0), (0, 4357873022197916), (17699749492,
    0)]], 2, 2⟩, 72057594037927936, 24226612266375, 1137951764935, ⟨[], 0, 0⟩, 0, 0, 0, lc0⟩ 1 1 57174821700) (.out
    ⟨2116, 16, 9031, 14921, 16, 22222, ⟨[[(11175048350236672, 0), (0, 2122342179146310), (4294146626, 0)],
    [(26285652958794490, 0), (0, 1069739518532), (1155663, 0)], [(0, 9873423368118), (0, 1521935), (283, 0)]], 2, 2⟩,
    ⟨[[(4602701929250816, 0), (0, 4358002875170145), (17664261207, 0)]], 2, 2⟩, 72057594037927936, 24667173627082,
    1133356854545, ⟨[], 0, 0⟩, 0, 0, 0, lc0⟩ 1 1 45982618426)) (.sy (.out ⟨2125, 16, 9134, 14951, 16, 22312,
    ⟨[[(25287842759507968, 0), (0, 2142263278354754), (4190647900, 0)], [(26042590458229300, 0), (0, 1080857840300),
    (985583, 0)], [(0, 9986733293683), (0, 1260089), (270, 0)]], 2, 2⟩, ⟨[[(5263707049164800, 0), (0,
    4357900419343931), (17627977345, 0)]], 2, 2⟩, 72057594037927936, 25124807516132, 1128729879069, ⟨[], 0, 0⟩, 0, 0,
    0, lc0⟩ 1 1 35240442246) (.sy (.out ⟨2843, 16, 12285, 29964, 16, 44784, ⟨[[(36012608631111680, 0), (0,
    1438553001301044), (1369014816, 0)], [(34479479229656448, 0), (0, 726400227663), (283283, 0)], [(0,
    13432492252245), (0, 713948), (86, 0)]], 2, 2⟩, ⟨[[(0, 19675779170566144), (0, 4360234644511831), (8805299545,
    0)]], 2, 2⟩, 72057594037927936, 31844566635818, 281332507895, ⟨[], 0, 0⟩, 0, 0, 0, lc0⟩ 1 1 27536483022) (.out
    ⟨2854, 16, 12375, 29994, 16, 44875, ⟨[[(17347959595466752, 0), (0, 1447721144052997), (1351339837, 0)],
    [(34364820917290441, 0), (0, 731451969026), (252108, 0)], [(0, 13531238104614), (0, 633160), (84, 0)]], 2, 2⟩,
    ⟨[[(14799510614048768, 0), (0, 4360249503382641), (8796412043, 0)]], 2, 2⟩, 72057594037927936, 32155572781848,
    280763897132, ⟨[], 0, 0⟩, 0, 0, 0, lc0⟩ 1 1 21981789562)))))
theorem c65 : checkR job con0 true ⟨7, 9, 7, 9, 13, 17⟩ 1 28336 t65 1125 21 2560 30745 251 32000 = true := by decide +kernel

def t66 : CTree :=
  .sy (.out ⟨1048, 16, 4289, 7384, 16, 10897, ⟨[[(30320344595103744, 0), (0, 2100071522923891), (9518588099, 0)],
    [(26115460034984116, 0), (0, 2045617239875), (7325123, 0)], [(0, 17887913896152), (305420, 0), (3735, 0)]], 2,
    2⟩, ⟨[[(32829271707156480, 0), (0, 4353425214132450), (35617541248, 0)]], 2, 2⟩, 72057594037927936,
    89293286019671, 4617540529014, ⟨[], 0, 0⟩, 0, 0, 0, lc0⟩ 1 1 73764056477) (.sy (.out ⟨1405, 16, 5809, 14830, 16,
    21951, ⟨[[(10036643807559680, 0), (0, 1417404630630605), (3094911872, 0)], [(34328879055158004, 0), (0,
    1381767303035), (2190406, 0)], [(0, 24226432585829), (2091884, 0), (1239, 0)]], 2, 2⟩, ⟨[[(0, 27126683359510528),
    (0, 4357897584078398), (17772321280, 0)]], 2, 2⟩, 72057594037927936, 114729301346523, 1147300681068, ⟨[], 0, 0⟩,
    0, 0, 0, lc0⟩ 1 1 55667579938) (.out ⟨1415, 16, 5892, 14860, 16, 22041, ⟨[[(15231693363068928, 0), (0,
    1434550820427946), (3047261517, 0)], [(34116360537431241, 0), (0, 1399383064736), (2014093, 0)], [(0,
    24571203722767), (3374711, 0), (1239, 0)]], 2, 2⟩, ⟨[[(249748279525376, 0), (0, 4357903443308502), (17736035079,
    0)]], 2, 2⟩, 72057594037927936, 116853375103230, 1142616616116, ⟨[], 0, 0⟩, 0, 0, 0, lc0⟩ 1 1 43606102252))
theorem c66 : checkR job con0 true ⟨7, 9, 7, 9, 13, 17⟩ 1 28336 t66 1167 21 2560 61239 251 64000 = true := by decide +kernel

def t67 : CTree :=
  .sx (.sy (.out ⟨2134, 16, 8978, 14890, 16, 22131, ⟨[[(0, 17674950034554880), (0, 2158964467033384), (4467982178,
    0)], [(25853989308961088, 0), (0, 1064753532829), (1350515, 0)], [(0, 9509440387985), (574745, 0), (409, 0)]], 2,
    2⟩, ⟨[[(18699443624214528, 0), (0, 4357873022197916), (17699749492, 0)]], 2, 2⟩, 72057594037927936,
    23923643310584, 1137951764935, ⟨[], 0, 0⟩, 0, 0, 0, lc0⟩ 1 1 39715944370) (.sy (.out ⟨2862, 16, 12105, 29843, 16,
    44422, ⟨[[(0, 19109209985056768), (0, 1453221560923537), (1468289041, 0)], [(34318571612554423, 0), (0,
    717148378449), (411721, 0)], [(0, 12821169443175), (593124, 0), (135, 0)]], 2, 2⟩, ⟨[[(0, 33413341372743680), (0,
    4360280560718833), (8841244103, 0)]], 2, 2⟩, 72057594037927936, 30418945217867, 283631697694, ⟨[], 0, 0⟩, 0, 0,
    0, lc0⟩ 1 1 31882720110) (.out ⟨2872, 16, 12193, 29873, 16, 44512, ⟨[[(24952394843193344, 0), (0,
    1462314255143786), (1452855492, 0)], [(34205534481497368, 0), (0, 721960509246), (384651, 0)], [(0,
    12914041661286), (733511, 0), (135, 0)]], 2, 2⟩, ⟨[[(0, 29484003954262016), (0, 4360233558968853), (8832158596,
    0)]], 2, 2⟩, 72057594037927936, 30709825773068, 283052030161, ⟨[], 0, 0⟩, 0, 0, 0, lc0⟩ 1 1 26944324192))) (.sy
    (.sy (.out ⟨2899, 16, 12093, 29782, 16, 44241, ⟨[[(17245037102366720, 0), (0, 1484902957023979), (1536786537,
    0)], [(33945267318761972, 0), (0, 717228974440), (482152, 0)], [(0, 12407373425102), (1886321, 0), (177, 0)]], 2,
    2⟩, ⟨[[(0, 30974639591129088), (0, 4360249366577833), (8859216343, 0)]], 2, 2⟩, 72057594037927936,
    29599289605124, 284788282210, ⟨[], 0, 0⟩, 0, 0, 0, lc0⟩ 1 1 26848263213) (.out ⟨2910, 16, 12182, 29812, 16,
    44331, ⟨[[(11608614289801216, 0), (0, 1494290049200547), (1522006923, 0)], [(33832513133740117, 0), (0,
    722034261491), (456924, 0)], [(0, 12497688410038), (2078540, 0), (177, 0)]], 2, 2⟩, ⟨[[(0, 18155748242489344),
    (0, 4360220344346991), (8850130501, 0)]], 2, 2⟩, 72057594037927936, 29883325711130, 284206216721, ⟨[], 0, 0⟩, 0,
    0, 0, lc0⟩ 1 1 21227058994)) (.sx (.sy (.out ⟨4340, 16, 18263, 29843, 16, 44422, ⟨[[(0, 6236402306842624), (0,
    2226578395368499), (2235014778, 0)], [(25286391307180675, 0), (0, 540928768704), (317733, 0)], [(0,
    4721393387438), (690665, 0), (62, 0)]], 2, 2⟩, ⟨[[(0, 33413341372743680), (0, 4360280560718833), (8841244103,
    0)]], 2, 2⟩, 72057594037927936, 6008780154393, 283631697694, ⟨[], 0, 0⟩, 0, 0, 0, lc0⟩ 1 1 19805566533) (.sy
    (.out ⟨5855, 16, 24703, 59746, 16, 89002, ⟨[[(0, 32612707846651904), (0, 1504732870013288), (745536925, 0)],
    [(33927602931561655, 0), (0, 365679506642), (101735, 0)], [(0, 6385913530597), (498848, 0), (21, 0)]], 2, 2⟩,
    ⟨[[(0, 28435280608362496), (0, 4361373208377884), (4418356755, 0)]], 2, 2⟩, 72057594037927936, 7627260929578,
    70799707631, ⟨[], 0, 0⟩, 0, 0, 0, lc0⟩ 1 1 15573268040) (.out ⟨5866, 16, 24795, 59776, 16, 89092, ⟨[[(0,
    12120637231333376), (0, 1509589042060620), (741354844, 0)], [(33869728236554526, 0), (0, 366940805014), (98240,
    0)], [(0, 6409439558875), (521884, 0), (21, 0)]], 2, 2⟩, ⟨[[(0, 27273473896218624), (0, 4361346355817644),
    (4416083713, 0)]], 2, 2⟩, 72057594037927936, 7664562816457, 70727408420, ⟨[], 0, 0⟩, 0, 0, 0, lc0⟩ 1 1
    13070753370))) (.leaf ⟨3744, 16, 12311, 1916, 16, 8736, ⟨[[(0, 10861512182398976), (0, 3030964334970615),
    (6007156864, 0), (0, 148507), (0, 3)], [(16688726142766501, 0), (0, 728964156592), (841466, 0), (0, 81)], [(0,
    3131767954685), (1396098, 0), (189, 0)], [(400760712, 0), (3348, 0)]], 3, 4⟩, ⟨[[(0, 24106957274480640), (0,
    2428542411463286), (0, 1106116675), (0, 220652), (0, 7)], [(0, 24083037496887802), (0, 126590086066), (0,
    3381894), (0, 153)], [(1619498360227, 0), (8222124, 0), (0, 285)], [(0, 100534616), (1308, 0)]], 3, 4⟩,
    72057594037927936, 7500776682, 2921111097, ⟨[[(13438376584379, 0), (5427737313, 0), (79635, 0), (0, 1219), (0,
    2)], [(0, 4379392271), (0, 1971510), (348, 0), (2, 0)], [(1605215, 0), (625, 0)], [(0, 553)]], 3, 4⟩,
    17592186044416, 61724,
    12404765319514069528577977091196919088021168942540481433180202623795170024342079476394584150730811377101264386108221791449221752,
    lc0⟩)))
theorem c67 : checkR job con0 true ⟨7, 9, 7, 9, 13, 17⟩ 1 28336 t67 1167 21 2560 123231 251 128000 = true := by decide +kernel

def t68 : CTree :=
  .sx (.sy (.sy (.out ⟨2883, 16, 12282, 29903, 16, 44603, ⟨[[(4007162676281344, 0), (0, 1471532230686691),
    (1436536103, 0)], [(34090235361378639, 0), (0, 726856780555), (356473, 0)], [(0, 13007899766728), (874297, 0),
    (134, 0)]], 2, 2⟩, ⟨[[(18355149176307712, 0), (0, 4360275506780610), (8823271541, 0)]], 2, 2⟩, 72057594037927936,
    31005936896915, 282479802957, ⟨[], 0, 0⟩, 0, 0, 0, lc0⟩ 1 1 21106430893) (.sy (.out ⟨3489, 16, 14903, 59867, 16,
    89364, ⟨[[(0, 1546332294774784), (0, 892128293459321), (429521094, 0)], [(41033148960462208, 0), (0,
    440827183318), (100944, 0)], [(0, 15783385619791), (591409, 0), (40, 0)]], 2, 2⟩, ⟨[[(0, 12472530618548224), (0,
    4361350252638999), (4409363815, 0)]], 2, 2⟩, 72057594037927936, 37332385129489, 70511920497, ⟨[], 0, 0⟩, 0, 0, 0,
    lc0⟩ 1 1 17298630083) (.out ⟨3498, 16, 14968, 59897, 16, 89455, ⟨[[(0, 3235120812556288), (0, 895588353399620),
    (427145963, 0)], [(40989881303002984, 0), (0, 442650526053), (96499, 0)], [(0, 15851917093736), (634501, 0), (40,
    0)]], 2, 2⟩, ⟨[[(28118062055030784, 0), (0, 4361363308840754), (4407140275, 0)]], 2, 2⟩, 72057594037927936,
    37536642043514, 70441007939, ⟨[], 0, 0⟩, 0, 0, 0, lc0⟩ 1 1 14593453574))) (.sx (.sy (.sy (.out ⟨5800, 16, 24906,
    59928, 16, 89546, ⟨[[(8431657831890944, 0), (0, 1481771802766137), (702004272, 0)], [(34195761421001710, 0), (0,
    368204912533), (75504, 0)], [(0, 6647110237069), (164049, 0), (15, 0)]], 2, 2⟩, ⟨[[(0, 5582142206115840), (0,
    4361374096304711), (4404916698, 0)]], 2, 2⟩, 72057594037927936, 7914878769181, 70369739948, ⟨[], 0, 0⟩, 0, 0, 0,
    lc0⟩ 1 1 16222343224) (.out ⟨5811, 16, 24999, 59958, 16, 89637, ⟨[[(29962005342322688, 0), (0, 1486600949325913),
    (697449273, 0)], [(34137939449053800, 0), (0, 369505804010), (71617, 0)], [(0, 6671844313642), (179935, 0), (15,
    0)]], 2, 2⟩, ⟨[[(30545439730696192, 0), (0, 4361382621907169), (4402693091, 0)]], 2, 2⟩, 72057594037927936,
    7954078319576, 70298160022, ⟨[], 0, 0⟩, 0, 0, 0, lc0⟩ 1 1 13701892648)) (.leaf ⟨5683, 16, 19074, 2610, 16, 11873,
    ⟨[[(0, 164415748898816), (0, 2266934548977191), (2095251675, 0), (0, 29774)], [(25834661373806360, 0), (0,
    563701535118), (199210, 0), (0, 17)], [(0, 5090444053814), (309181, 0), (46, 0)], [(648479100, 0), (2925, 0)]],
    3, 4⟩, ⟨[[(0, 9710050131869696), (0, 1640978534483562), (0, 482606823), (0, 39638), (0, 1)], [(0,
    33495707384252483), (0, 92867950109), (0, 1305815), (0, 29)], [(2265221019902, 0), (4713307, 0), (0, 128)], [(0,
    141238879), (1058, 0)]], 3, 4⟩, 72057594037927936, 9945577925, 4489005322, ⟨[[(13805318053129, 0), (4106911595,
    0), (18517, 0), (0, 565), (0, 1)], [(0, 2996365537), (0, 981530), (136, 0), (1, 0)], [(725174, 0), (206, 0)],
    [(0, 165)]], 3, 4⟩, 17592186044416, 68289,
    12645440143963225131370149190922438063553327213468856327677292322104896962190687277984461391718568147442524438780337047158104759,
    lc0⟩)) (.leaf ⟨3758, 16, 12563, 1899, 16, 8686, ⟨[[(12427176534704128, 0), (0, 3018796628404200), (5602537447,
    0), (0, 158850), (0, 4)], [(16829687552107858, 0), (0, 742642933466), (570109, 0), (0, 90)], [(0, 3299388798126),
    (856124, 0), (145, 0)], [(421900521, 0), (3800, 0)]], 3, 4⟩, ⟨[[(18965019169079296, 0), (0, 2406311501437873),
    (0, 1484116069), (0, 235231), (0, 7)], [(0, 24349072087437632), (0, 134333442819), (0, 3788907), (0, 166)],
    [(1643375498099, 0), (7182518, 0), (0, 349)], [(0, 101792939), (1555, 0)]], 3, 4⟩, 72057594037927936, 7123376095,
    4667291299, ⟨[[(13679682672052, 0), (5582252818, 0), (82989, 0), (0, 1322), (0, 2)], [(0, 4478740111), (0,
    2025059), (317, 0), (2, 0)], [(1639422, 0), (642, 0)], [(0, 563)]], 3, 4⟩, 17592186044416, 51072,
    9727238957513770264048839561564480563701112012533145842313467081060124359225702742691619970597255857863865471275725225293714124,
    lc0⟩))) (.leaf ⟨1869, 16, 6206, 945, 16, 4349, ⟨[[(0, 3040588546441216), (0, 3031559578591195), (11384575319, 0),
    (0, 635225), (0, 30)], [(16405776900074085, 0), (0, 1467750457216), (2599894, 0), (0, 698)], [(0, 6363973136518),
    (5858510, 0), (1429, 0)], [(1635895092, 0), (29183, 0), (3, 0)]], 3, 4⟩, ⟨[[(0, 33108000688521216), (0,
    2417260955224821), (0, 3088328290), (0, 953488), (0, 60)], [(0, 24143270407464296), (0, 263399264039), (0,
    14846305), (0, 1307)], [(3249436216520, 0), (30601489, 0), (0, 2476)], [(0, 399306424), (12314, 0), (3, 0)]], 3,
    4⟩, 72057594037927936, 48260867488, 25606113010, ⟨[[(13502452930738, 0), (11041670552, 0), (533392, 0), (0,
    9424), (0, 29)], [(0, 8852652713), (0, 8083192), (1994, 0), (30, 0)], [(6515019, 0), (5132, 0)], [(0, 4499), (0,
    3)]], 3, 4⟩, 17592186044416, 565090,
    11782618166299478249142610219202390088691339862141074564073520340585837820165301780126898389639690933704014806403593144315676511,
    lc0⟩)
theorem c68 : checkR job con0 true ⟨7, 9, 7, 9, 13, 17⟩ 1 28336 t68 1167 21 2560 123733 251 128000 = true := by decide +kernel

def t69 : CTree :=
  .sx (.sy (.out ⟨702, 16, 2695, 3632, 16, 5282, ⟨[[(0, 11226121690890240), (0, 2794251831710600), (28708926126, 0)],
    [(17769719965343040, 0), (0, 2611606344466), (27670241, 0)], [(0, 10555095495920), (0, 3534166), (12823, 0)]], 2,
    2⟩, ⟨[[(0, 28724215771922432), (0, 4344392086494269), (72124048917, 0)]], 2, 2⟩, 72057594037927936,
    71440986203877, 19013665147494, ⟨[], 0, 0⟩, 0, 0, 0, lc0⟩ 1 1 136809533224) (.sy (.out ⟨1056, 16, 4141, 7323, 16,
    10718, ⟨[[(5036047283208192, 0), (0, 2130582568001580), (10432104336, 0)], [(25799005398895223, 0), (0,
    1991339866058), (9383625, 0)], [(0, 16217671957258), (4716189, 0), (4949, 0)]], 2, 2⟩, ⟨[[(22327543311237120, 0),
    (0, 4353135037765585), (35910141126, 0)]], 2, 2⟩, 72057594037927936, 81117298425947, 4694111727396, ⟨[], 0, 0⟩,
    0, 0, 0, lc0⟩ 1 1 90838939333) (.sy (.out ⟨1421, 16, 5632, 14708, 16, 21593, ⟨[[(14652883753762816, 0), (0,
    1443599768968993), (3434499087, 0)], [(34070218987114100, 0), (0, 1349538331327), (2956142, 0)], [(0,
    22053603269181), (5747227, 0), (1691, 0)]], 2, 2⟩, ⟨[[(15274841073254400, 0), (0, 4357905945135126),
    (17919094836, 0)]], 2, 2⟩, 72057594037927936, 104830192286347, 1166336727580, ⟨[], 0, 0⟩, 0, 0, 0, lc0⟩ 1 1
    71002213144) (.out ⟨1431, 16, 5711, 14738, 16, 21682, ⟨[[(0, 3421588549648384), (0, 1460392720583953),
    (3401960331, 0)], [(33861891958276443, 0), (0, 1365542263040), (2829856, 0)], [(0, 22359590575022), (7553255, 0),
    (1722, 0)]], 2, 2⟩, ⟨[[(29728538543915008, 0), (0, 4357858808414926), (17881989850, 0)]], 2, 2⟩,
    72057594037927936, 106678441860937, 1161521487720, ⟨[], 0, 0⟩, 0, 0, 0, lc0⟩ 1 1 57328875771)))) (.sy (.sy (.out
    ⟨1062, 16, 3992, 7263, 16, 10541, ⟨[[(6018039662608384, 0), (0, 2156351418157752), (11260321728, 0)],
    [(25535007051952213, 0), (0, 1939520224830), (11048653, 0)], [(0, 14676696689655), (3735523, 0), (5652, 0)]], 2,
    2⟩, ⟨[[(0, 34532544775520256), (0, 4353053784781898), (36209366113, 0)]], 2, 2⟩, 72057594037927936,
    73734399682473, 4772837762632, ⟨[], 0, 0⟩, 0, 0, 0, lc0⟩ 1 1 114485077141) (.out ⟨1070, 16, 4078, 7293, 16,
    10630, ⟨[[(0, 24667173288984576), (0, 2191453032431067), (11106208982, 0)], [(25093277547375171, 0), (0,
    1970346778795), (10528195, 0)], [(0, 14989497853561), (9670997, 0), (5894, 0)]], 2, 2⟩, ⟨[[(27724777240264704,
    0), (0, 4353374790598559), (36061454019, 0)]], 2, 2⟩, 72057594037927936, 76086579994515, 4733533930609, ⟨[], 0,
    0⟩, 0, 0, 0, lc0⟩ 1 1 81885702941)) (.sy (.sy (.out ⟨1453, 16, 5600, 14647, 16, 21415, ⟨[[(13224171045044224, 0),
    (0, 1499016280510091), (3702033063, 0)], [(33441950110992878, 0), (0, 1347575843726), (3403300, 0)], [(0,
    20577756570337), (9714826, 0), (2061, 0)]], 2, 2⟩, ⟨[[(31361480913453056, 0), (0, 4357889061931270),
    (17993307302, 0)]], 2, 2⟩, 72057594037927936, 99056801747514, 1176027086837, ⟨[], 0, 0⟩, 0, 0, 0, lc0⟩ 1 1
    62530807731) (.out ⟨1463, 16, 5678, 14678, 16, 21504, ⟨[[(0, 10898724909629440), (0, 1516166368653239),
    (3674202650, 0)], [(33222700244283453, 0), (0, 1362956319082), (3299825, 0)], [(0, 20858901724890), (11961747,
    0), (2118, 0)]], 2, 2⟩, ⟨[[(0, 8181383188971520), (0, 4357916183164676), (17956201285, 0)]], 2, 2⟩,
    72057594037927936, 100761634678220, 1171171879835, ⟨[], 0, 0⟩, 0, 0, 0, lc0⟩ 1 1 49206903163)) (.sx (.sy (.out
    ⟨2176, 16, 8534, 14708, 16, 21593, ⟨[[(0, 27247700306526208), (0, 2251846281342343), (5347998903, 0)],
    [(24784951444106011, 0), (0, 1022033510303), (2328203, 0)], [(0, 7962803836848), (4535124, 0), (765, 0)]], 2, 2⟩,
    ⟨[[(15274841073254400, 0), (0, 4357905945135126), (17919094836, 0)]], 2, 2⟩, 72057594037927936, 20334997345401,
    1166336727580, ⟨[], 0, 0⟩, 0, 0, 0, lc0⟩ 1 1 44283802694) (.sy (.out ⟨2959, 16, 11669, 29478, 16, 43343, ⟨[[(0,
    16451174875987968), (0, 1536806953174781), (1795405447, 0)], [(33364098743876949, 0), (0, 697566050278), (764126,
    0)], [(0, 10885489080598), (3496359, 0), (264, 0)]], 2, 2⟩, ⟨[[(0, 19411189391425536), (0, 4360238090162287),
    (8950485763, 0)]], 2, 2⟩, 72057594037927936, 26204904394779, 290688906740, ⟨[], 0, 0⟩, 0, 0, 0, lc0⟩ 1 1
    35460308288) (.out ⟨2969, 16, 11752, 29508, 16, 43432, ⟨[[(2938591172493312, 0), (0, 1545933964325863),
    (1785532660, 0)], [(33248936186988946, 0), (0, 701766065988), (747639, 0)], [(0, 10961081234077), (3789201, 0),
    (268, 0)]], 2, 2⟩, ⟨[[(0, 10625173162557440), (0, 4360200510809971), (8941194888, 0)]], 2, 2⟩, 72057594037927936,
    26439074740987, 290087786005, ⟨[], 0, 0⟩, 0, 0, 0, lc0⟩ 1 1 29496706355))) (.sy (.sy (.out ⟨2989, 16, 11627,
    29417, 16, 43164, ⟨[[(322096738304000, 0), (0, 1564164011180713), (1866408549, 0)], [(33045827896371877, 0), (0,
    696335029911), (826324, 0)], [(0, 10504178636278), (3977609, 0), (288, 0)]], 2, 2⟩, ⟨[[(0, 27481225778167808),
    (0, 4360184805394146), (8968860870, 0)]], 2, 2⟩, 72057594037927936, 25449352700318, 291887329575, ⟨[], 0, 0⟩, 0,
    0, 0, lc0⟩ 1 1 31557157126) (.out ⟨2999, 16, 11710, 29447, 16, 43253, ⟨[[(26908108973309952, 0), (0,
    1573453833074020), (1857335104, 0)], [(32929879869889615, 0), (0, 700480659965), (811518, 0)], [(0,
    10577078947319), (4298657, 0), (293, 0)]], 2, 2⟩, ⟨[[(0, 9674756007395328), (0, 4360165739329284), (8959569915,
    0)]], 2, 2⟩, 72057594037927936, 25675195682618, 291284113844, ⟨[], 0, 0⟩, 0, 0, 0, lc0⟩ 1 1 25545317396)) (.sx
    (.sy (.out ⟨4414, 16, 17323, 29478, 16, 43343, ⟨[[(0, 12853925293588480), (0, 2314053138168757), (2701469006,
    0)], [(24262126538083267, 0), (0, 517596847200), (580063, 0)], [(0, 3942915562901), (1599703, 0), (106, 0)]], 2,
    2⟩, ⟨[[(0, 19411189391425536), (0, 4360238090162287), (8950485763, 0)]], 2, 2⟩, 72057594037927936, 5092035643819,
    290688906740, ⟨[], 0, 0⟩, 0, 0, 0, lc0⟩ 1 1 23181371047) (.out ⟨4422, 16, 17420, 29508, 16, 43432,
    ⟨[[(24122558877270016, 0), (0, 2324300491350518), (2682011151, 0)], [(24136839216173010, 0), (0, 519917557255),
    (567165, 0)], [(0, 3964159296055), (1716557, 0), (108, 0)]], 2, 2⟩, ⟨[[(0, 10625173162557440), (0,
    4360200510809971), (8941194888, 0)]], 2, 2⟩, 72057594037927936, 5136827363563, 290087786005, ⟨[], 0, 0⟩, 0, 0, 0,
    lc0⟩ 1 1 17413656661)) (.leaf ⟨3700, 16, 11519, 1945, 16, 8902, ⟨[[(23468717762904064, 0), (0, 3104571209645017),
    (7204361265, 0), (0, 123856), (0, 3)], [(15828409070301336, 0), (0, 687775779406), (1546143, 0), (0, 56)], [(0,
    2579139220167), (2465486, 0), (299, 0)], [(334968846, 0), (2102, 0)]], 3, 4⟩, ⟨[[(13350490419200000, 0), (0,
    2509814616404389), (0, 216325547), (0, 190491), (0, 6)], [(0, 23123349409905085), (0, 105230427048), (0,
    2335247), (0, 119)], [(1522266786044, 0), (10563526, 0), (0, 113)], [(0, 94268358), (698, 0)]], 3, 4⟩,
    72057594037927936, 5241944659, 2519549604, ⟨[[(12546580083055, 0), (4942657041, 0), (159356, 0), (0, 773), (0,
    1)], [(0, 4017023840), (0, 1821822), (268, 0), (1, 0)], [(1479472, 0), (578, 0)], [(0, 516)]], 3, 4⟩,
    17592186044416, 78062,
    9896046516543519619301589521871880749801693889335409801212379696549450124636887753086498309120772460649734916784480357950274794,
    lc0⟩))))))
theorem c69 : checkR job con0 true ⟨7, 9, 7, 9, 13, 17⟩ 1 28336 t69 615 21 1280 30243 251 32000 = true := by decide +kernel

def t70 : CTree :=
  .sy (.sy (.out ⟨1441, 16, 5791, 14769, 16, 21772, ⟨[[(0, 22137567936200704), (0, 1477429303709533), (3363807954,
    0)], [(33641834761386179, 0), (0, 1381878576741), (2691454, 0)], [(0, 22668519198554), (9417166, 0), (1756, 0)]],
    2, 2⟩, ⟨[[(12058336724123648, 0), (0, 4357975392124101), (17845707842, 0)]], 2, 2⟩, 72057594037927936,
    108575828424010, 1156779531765, ⟨[], 0, 0⟩, 0, 0, 0, lc0⟩ 1 1 44585005987) (.sx (.out ⟨2157, 16, 8761, 14799, 16,
    21861, ⟨[[(0, 21385742011596800), (0, 2208197689293645), (4913379416, 0)], [(25286445205697694, 0), (0,
    1043481335454), (1867913, 0)], [(0, 8710028844489), (3264827, 0), (619, 0)]], 2, 2⟩, ⟨[[(8572804493344768, 0),
    (0, 4357854996717635), (17808606268, 0)]], 2, 2⟩, 72057594037927936, 22069407162352, 1152003937383, ⟨[], 0, 0⟩,
    0, 0, 0, lc0⟩ 1 1 41110609529) (.sy (.out ⟨2948, 16, 11873, 29599, 16, 43701, ⟨[[(0, 14984146678153216), (0,
    1526830869325400), (1703623205, 0)], [(33470107555661361, 0), (0, 707158060417), (663998, 0)], [(0,
    11431827936659), (3392741, 0), (243, 0)]], 2, 2⟩, ⟨[[(14556287164481536, 0), (0, 4360233139359172), (8913733856,
    0)]], 2, 2⟩, 72057594037927936, 27464522316076, 288306085352, ⟨[], 0, 0⟩, 0, 0, 0, lc0⟩ 1 1 27637647867) (.out
    ⟨2958, 16, 11959, 29630, 16, 43791, ⟨[[(31409953496694784, 0), (0, 1536179521889804), (1691670228, 0)],
    [(33355144240905338, 0), (0, 711621037447), (644244, 0)], [(0, 11512855170331), (3663425, 0), (246, 0)]], 2, 2⟩,
    ⟨[[(0, 17834206035968000), (0, 4360258785440885), (8904647880, 0)]], 2, 2⟩, 72057594037927936, 27718346965059,
    287716903144, ⟨[], 0, 0⟩, 0, 0, 0, lc0⟩ 1 1 22568572876)))) (.sx (.sy (.sy (.out ⟨2914, 16, 11900, 29660, 16,
    43880, ⟨[[(0, 16214560072204288), (0, 1497202870617019), (1633112025, 0)], [(33813106476901730, 0), (0,
    707749154741), (596895, 0)], [(0, 11828977432978), (2534039, 0), (211, 0)]], 2, 2⟩, ⟨[[(0, 31381707499503616),
    (0, 4360175813877104), (8895358919, 0)]], 2, 2⟩, 72057594037927936, 28253779832874, 287122110098, ⟨[], 0, 0⟩, 0,
    0, 0, lc0⟩ 1 1 32716315679) (.out ⟨2924, 16, 11986, 29690, 16, 43970, ⟨[[(23949638495338496, 0), (0,
    1506383719190958), (1620473486, 0)], [(33699761734275901, 0), (0, 712273288459), (575370, 0)], [(0,
    11913129401812), (2765475, 0), (212, 0)]], 2, 2⟩, ⟨[[(0, 669162770268160), (0, 4360183216294845), (8886273152,
    0)]], 2, 2⟩, 72057594037927936, 28516517875527, 286535242227, ⟨[], 0, 0⟩, 0, 0, 0, lc0⟩ 1 1 27212879051)) (.sy
    (.out ⟨2935, 16, 12074, 29720, 16, 44060, ⟨[[(17056293936988160, 0), (0, 1515817140823945), (1607162048, 0)],
    [(33587139444155081, 0), (0, 716934132156), (552963, 0)], [(0, 11999141962233), (3000870, 0), (214, 0)]], 2, 2⟩,
    ⟨[[(25561789898948608, 0), (0, 4360181479205886), (8877187350, 0)]], 2, 2⟩, 72057594037927936, 28786374217942,
    285949524859, ⟨[], 0, 0⟩, 0, 0, 0, lc0⟩ 1 1 21312155655) (.sy (.out ⟨3573, 16, 14739, 59502, 16, 88279,
    ⟨[[(32009145274171392, 0), (0, 924461594883473), (484584328, 0)], [(40671157407053477, 0), (0, 437339236328),
    (162535, 0)], [(0, 14646202796307), (1930256, 0), (66, 0)]], 2, 2⟩, ⟨[[(25274131531431936, 0), (0,
    4361359914815595), (4436392623, 0)]], 2, 2⟩, 72057594037927936, 34863088300130, 71379017278, ⟨[], 0, 0⟩, 0, 0, 0,
    lc0⟩ 1 1 17343715898) (.out ⟨3582, 16, 14803, 59533, 16, 88369, ⟨[[(35613289236037632, 0), (0, 927989181754406),
    (482686052, 0)], [(40627303750806857, 0), (0, 439076482298), (159018, 0)], [(0, 14708810056384), (2004777, 0),
    (66, 0)]], 2, 2⟩, ⟨[[(0, 27844522053992448), (0, 4361351033142817), (4434119366, 0)]], 2, 2⟩, 72057594037927936,
    35049193717316, 71306311347, ⟨[], 0, 0⟩, 0, 0, 0, lc0⟩ 1 1 14812309528)))) (.sy (.sx (.sy (.out ⟨4381, 16, 17802,
    29660, 16, 43880, ⟨[[(0, 15839210312040448), (0, 2273112122122650), (2471533735, 0)], [(24740880063301800, 0),
    (0, 529240968111), (457011, 0)], [(0, 4318508092533), (1329317, 0), (89, 0)]], 2, 2⟩, ⟨[[(0, 31381707499503616),
    (0, 4360175813877104), (8895358919, 0)]], 2, 2⟩, 72057594037927936, 5534475063871, 287122110098, ⟨[], 0, 0⟩, 0,
    0, 0, lc0⟩ 1 1 20496368718) (.leaf ⟨5685, 16, 18261, 2677, 16, 12178, ⟨[[(0, 32483897908789248), (0,
    2329195019712725), (2496783388, 0), (0, 25851)], [(25106376874319110, 0), (0, 542425872390), (449147, 0), (0,
    13)], [(0, 4429147395730), (1455076, 0), (91, 0)], [(568409516, 0), (2113, 0)]], 3, 4⟩, ⟨[[(33637159392083968,
    0), (0, 1701667413797310), (0, 217598423), (0, 35080), (0, 1)], [(0, 32778562947156200), (0, 80704087972), (0,
    991375), (0, 24)], [(2188428421939, 0), (6503001, 0), (0, 72)], [(0, 136124782), (691, 0)]], 3, 4⟩,
    72057594037927936, 8816218193, 4179344222, ⟨[[(13085361950771, 0), (3772329670, 0), (49206, 0), (0, 398)], [(0,
    2774535030), (0, 900647), (122, 0)], [(667529, 0), (187, 0)], [(0, 152)]], 3, 4⟩, 17592186044416, 73081,
    12760533704011684714845599841826688849936388652223206209694896944564641982318105150249380965871245662010562254369342774516582271,
    lc0⟩)) (.leaf ⟨3723, 16, 11913, 1930, 16, 8821, ⟨[[(19744268969639936, 0), (0, 3070387497583566), (6616581120,
    0), (0, 136189), (0, 3)], [(16226802660895363, 0), (0, 707857593559), (1218558, 0), (0, 68)], [(0,
    2843278958862), (2179967, 0), (256, 0)], [(366293540, 0), (2696, 0)]], 3, 4⟩, ⟨[[(0, 7549880861392896), (0,
    2469882964427968), (0, 673379852), (0, 205703), (0, 7)], [(0, 23595628593930816), (0, 115398855357), (0,
    2837581), (0, 136)], [(1571627783391, 0), (9596277, 0), (0, 188)], [(0, 97324003), (996, 0)]], 3, 4⟩,
    72057594037927936, 5944885431, 3672981523, ⟨[[(12978149162222, 0), (5178879579, 0), (125846, 0), (0, 970), (0,
    1)], [(0, 4191467009), (0, 1894723), (303, 0), (2, 0)], [(1539925, 0), (600, 0)], [(0, 534)]], 3, 4⟩,
    17592186044416, 91761,
    10648537436310438351364438502466104329379549639172107437553027218989405976876130465083366776766654948919185234574760499606718158,
    lc0⟩)) (.leaf ⟨2848, 16, 9176, 1323, 16, 6081, ⟨[[(0, 12903711162925056), (0, 2348501100974702), (4916735296, 0),
    (0, 108812), (0, 3)], [(24635111277120216, 0), (0, 1088803617025), (1699491, 0), (0, 110)], [(0, 8828153757439),
    (6959861, 0), (769, 0)], [(2278547692, 0), (17600, 0), (1, 0)]], 3, 4⟩, ⟨[[(23181250250178560, 0), (0,
    1701541434529316), (0, 640748438), (0, 149164), (0, 5)], [(0, 32704940704632332), (0, 163721250580), (0,
    4189933), (0, 196)], [(4363807049177, 0), (25736273, 0), (0, 559)], [(0, 537659970), (6233, 0), (1, 0)]], 3, 4⟩,
    72057594037927936, 62351579181, 19993806362, ⟨[[(13029209871720, 0), (7578829936, 0), (315869, 0), (0, 2907), (0,
    6)], [(0, 5517794990), (0, 3638175), (693, 0), (6, 0)], [(2654297, 0), (1510, 0)], [(0, 1203), (0, 1)]], 3, 4⟩,
    17592186044416, 167073,
    9263578603179744329210639357049526362243846088032289960196678206070237330279614252507626475741746863484371402994579435757407624,
    lc0⟩)))
theorem c70 : checkR job con0 true ⟨7, 9, 7, 9, 13, 17⟩ 1 28336 t70 1209 21 2560 61239 251 64000 = true := by decide +kernel

def t71 : CTree :=
  .sy (.sx (.sy (.sy (.out ⟨2980, 16, 11837, 29539, 16, 43522, ⟨[[(0, 23513938509955072), (0, 1555321448593667),
    (1775095761, 0)], [(33134772769774787, 0), (0, 706097043787), (730461, 0)], [(0, 11038376588541), (4088414, 0),
    (272, 0)]], 2, 2⟩, ⟨[[(0, 29455061930999808), (0, 4360254048866492), (8932109778, 0)]], 2, 2⟩, 72057594037927936,
    26679744500687, 289494943571, ⟨[], 0, 0⟩, 0, 0, 0, lc0⟩ 1 1 23304468611) (.sy (.out ⟨3648, 16, 14530, 59137, 16,
    87200, ⟨[[(0, 28887737437126656), (0, 953767706451023), (539249099, 0)], [(40346963367698018, 0), (0,
    433035914908), (218860, 0)], [(0, 13547747347851), (2635189, 0), (84, 0)]], 2, 2⟩, ⟨[[(32381627247624192, 0), (0,
    4361338337700017), (4463722746, 0)]], 2, 2⟩, 72057594037927936, 32487784906166, 72261612060, ⟨[], 0, 0⟩, 0, 0, 0,
    lc0⟩ 1 1 18560311514) (.out ⟨3656, 16, 14592, 59168, 16, 87290, ⟨[[(35488524677545984, 0), (0, 957295616805972),
    (537822286, 0)], [(40300868694050048, 0), (0, 434664824894), (216193, 0)], [(0, 13604206288579), (2731126, 0),
    (85, 0)]], 2, 2⟩, ⟨[[(6203260564144128, 0), (0, 4361356970939717), (4461449593, 0)]], 2, 2⟩, 72057594037927936,
    32654642887969, 72188024253, ⟨[], 0, 0⟩, 0, 0, 0, lc0⟩ 1 1 16347778721))) (.leaf ⟨2840, 16, 9002, 1340, 16, 6134,
    ⟨[[(35512802967552000, 0), (0, 2358972038133220), (5214725842, 0), (0, 101250), (0, 2)], [(24525823188517312, 0),
    (0, 1071291416768), (2043344, 0), (0, 98)], [(0, 8390419955356), (7265459, 0), (842, 0)], [(2169057987, 0),
    (15198, 0), (1, 0)]], 3, 4⟩, ⟨[[(0, 19087282536857600), (0, 1722065787978211), (0, 375712879), (0, 139728), (0,
    4)], [(0, 32463596021322825), (0, 154943229256), (0, 3698333), (0, 181)], [(4307145405298, 0), (27672038, 0), (0,
    438)], [(0, 532807224), (4985, 0), (1, 0)]], 3, 4⟩, 72057594037927936, 59459110547, 19903571824,
    ⟨[[(12816365359891, 0), (7350945060, 0), (298979, 0), (0, 2664), (0, 5)], [(0, 5397900358), (0, 3529588), (765,
    0), (6, 0)], [(2596838, 0), (1464, 0)], [(0, 1181), (0, 1)]], 3, 4⟩, 17592186044416, 175918,
    12038024021078892223551537689219834262907137797174409097166464784241568621990875339259263163400435818285360178075983701464628178,
    lc0⟩)) (.leaf ⟨1847, 16, 5809, 959, 16, 4435, ⟨[[(34100773166546944, 0), (0, 3106006538566890), (13888126144, 0),
    (0, 531118), (0, 25)], [(15552578524161908, 0), (0, 1383116255132), (5654282, 0), (0, 488)], [(0, 5241421513848),
    (11208710, 0), (2423, 0)], [(1365822953, 0), (18618, 0), (2, 0)]], 3, 4⟩, ⟨[[(28978071432978432, 0), (0,
    2499166348499782), (0, 1222123671), (0, 825345), (0, 53)], [(0, 23184711949753515), (0, 217994392556), (0,
    10401076), (0, 1022)], [(3061111635245, 0), (41195849, 0), (0, 981)], [(0, 375820192), (7054, 0), (2, 0)]], 3,
    4⟩, 72057594037927936, 40173605255, 19905368427, ⟨[[(12598661885963, 0), (10045710631, 0), (791291, 0), (0,
    6000), (0, 17)], [(0, 8115373806), (0, 7464156), (1533, 0), (21, 0)], [(6003955, 0), (4760, 0), (0, 1)], [(0,
    4200), (0, 3)]], 3, 4⟩, 17592186044416, 456117,
    8588166325224972092074483319762292232455219328989455090169720179432123282760930883577036294574343357782078200967453730144000269,
    lc0⟩)) (.leaf ⟨1425, 16, 4545, 655, 16, 3060, ⟨[[(12175577807847424, 0), (0, 2396931784480178), (10130531662, 0),
    (0, 447757), (0, 21)], [(23599449365518540, 0), (0, 2156887141156), (7482826, 0), (0, 840)], [(0,
    16656942086615), (38713199, 0), (7440, 0)], [(8709629293, 0), (132031, 0), (15, 0)]], 3, 4⟩, ⟨[[(0,
    26247021683458048), (0, 1722302637886687), (0, 1584013643), (0, 630211), (0, 40)], [(0, 32327423538263875), (0,
    318641791656), (0, 16519330), (0, 1551)], [(8569719386861, 0), (109337449, 0), (0, 3185)], [(0, 2080289652),
    (50594, 0), (13, 0)]], 3, 4⟩, 72057594037927936, 470165289724, 147253140335, ⟨[[(12712199970817, 0),
    (14818679107, 0), (1957117, 0), (0, 17883), (0, 76)], [(0, 10681979466), (0, 14336566), (2584, 0), (77, 0)],
    [(10276012, 0), (11854, 0)], [(0, 9324), (0, 9)]], 3, 4⟩, 17592186044416, 1826482,
    12387724730936655756468918323618652126687559251847178721688451026775745638072342066220886992605896894532251561342791365344699320,
    lc0⟩)
theorem c71 : checkR job con0 true ⟨7, 9, 7, 9, 13, 17⟩ 1 28336 t71 1251 21 2560 61239 251 64000 = true := by decide +kernel

def t72 : CTree :=
  .sx (.sy (.sx (.sy (.sx (.sy (.sy (.out ⟨5905, 16, 24485, 59563, 16, 88459, ⟨[[(13061481108340736, 0), (0,
    1526525082752814), (789015574, 0)], [(33674144256982046, 0), (0, 363032341232), (126859, 0)], [(0,
    6131113379062), (759282, 0), (26, 0)]], 2, 2⟩, ⟨[[(0, 11130365110386688), (0, 4361339899781617), (4431846140,
    0)]], 2, 2⟩, 72057594037927936, 7346515466101, 71233224356, ⟨[], 0, 0⟩, 0, 0, 0, lc0⟩ 1 1 15783787924) (.out
    ⟨5916, 16, 24575, 59594, 16, 88550, ⟨[[(15561734644367360, 0), (0, 1531344448525763), (785188031, 0)],
    [(33615040655979746, 0), (0, 364240709545), (123737, 0)], [(0, 6153260484030), (788329, 0), (26, 0)]], 2, 2⟩,
    ⟨[[(0, 20200772164648960), (0, 4361375774887809), (4429622976, 0)]], 2, 2⟩, 72057594037927936, 7381669471410,
    71161284426, ⟨[], 0, 0⟩, 0, 0, 0, lc0⟩ 1 1 13126699469)) (.leaf ⟨5697, 16, 18607, 2645, 16, 12071,
    ⟨[[(20412246688858112, 0), (0, 2317140718072316), (2347008368, 0), (0, 27704)], [(25244066954150482, 0), (0,
    551294874054), (358218, 0), (0, 15)], [(0, 4658490189113), (1253461, 0), (79, 0)], [(597073478, 0), (2423, 0)]],
    3, 4⟩, ⟨[[(14754017569406976, 0), (0, 1680902923462668), (0, 344819424), (0, 37379), (0, 1)], [(0,
    33024748401514264), (0, 85249478714), (0, 1117208), (0, 26)], [(2215964728173, 0), (5932065, 0), (0, 89)], [(0,
    137434822), (847, 0)]], 3, 4⟩, 72057594037927936, 9252265324, 4226136621, ⟨[[(13319006672947, 0), (3892075836,
    0), (49514, 0), (0, 439)], [(0, 2842191664), (0, 929625), (115, 0)], [(684128, 0), (193, 0)], [(0, 155)]], 3, 4⟩,
    17592186044416, 76739,
    9964045300075710267229960919407657711235541500834005844073252616374848865714539616214036551526356838396757906041644704563997819,
    lc0⟩)) (.leaf ⟨3739, 16, 12162, 1913, 16, 8773, ⟨[[(0, 17320696628117504), (0, 3060904692378527), (6231401689,
    0), (0, 146373), (0, 3)], [(16336879390784238, 0), (0, 720769128880), (983716, 0), (0, 76)], [(0, 2996260955229),
    (1979325, 0), (227, 0)], [(385489222, 0), (3107, 0)]], 3, 4⟩, ⟨[[(0, 14121487465611264), (0, 2448217716829583),
    (0, 1055773695), (0, 220053), (0, 7)], [(0, 23851665528455915), (0, 122371464872), (0, 3212781), (0, 148)],
    [(1596930024411, 0), (8840010, 0), (0, 237)], [(0, 98535785), (1229, 0)]], 3, 4⟩, 72057594037927936, 7194882942,
    2491705704, ⟨[[(13203118067270, 0), (5323283511, 0), (129181, 0), (0, 1054), (0, 2)], [(0, 4281612159), (0,
    1943692), (279, 0), (2, 0)], [(1570372, 0), (615, 0)], [(0, 542)]], 3, 4⟩, 17592186044416, 94311,
    7891497647679605605786699271906334452887356154354422953235194276498746839072406649615629068591388495973372868653579277078115599,
    lc0⟩)) (.leaf ⟨2855, 16, 9351, 1307, 16, 6027, ⟨[[(0, 25346956780109824), (0, 2337091229685609), (4603692270, 0),
    (0, 116670), (0, 3)], [(24760087606442008, 0), (0, 1107063121523), (1317554, 0), (0, 123)], [(0, 9286923712571),
    (6157187, 0), (672, 0)], [(2394437890, 0), (20193, 0), (1, 0)]], 3, 4⟩, ⟨[[(11513067887296512, 0), (0,
    1680940111936919), (0, 910856842), (0, 158911), (0, 5)], [(0, 32950040160000750), (0, 173218671781), (0,
    4713212), (0, 213)], [(4417365457123, 0), (23388504, 0), (0, 700)], [(0, 542082066), (7558, 0), (1, 0)]], 3, 4⟩,
    72057594037927936, 64283729996, 20599502622, ⟨[[(13258002343571, 0), (7817888308, 0), (329650, 0), (0, 3188), (0,
    7)], [(0, 5648306282), (0, 3750677), (626, 0), (7, 0)], [(2717264, 0), (1556, 0)], [(0, 1229), (0, 1)]], 3, 4⟩,
    17592186044416, 141818,
    7101978549670224485590777522354419027753954629217982496221622808495585804125966912558882345030006950311852728559313379923738658,
    lc0⟩)) (.leaf ⟨1863, 16, 6056, 942, 16, 4386, ⟨[[(24507534305689600, 0), (0, 3090415903961553), (12307470213, 0),
    (0, 616518), (0, 29)], [(15718249104834984, 0), (0, 1434056331053), (3809825, 0), (0, 620)], [(0, 5822679026610),
    (10730672, 0), (2071, 0)], [(1512908410, 0), (25170, 0), (3, 0)]], 3, 4⟩, ⟨[[(0, 26387188905615360), (0,
    2456287582995409), (0, 2868824985), (0, 946967), (0, 60)], [(0, 23679555894377326), (0, 245767788611), (0,
    13413775), (0, 1215)], [(3161198459040, 0), (35887238, 0), (0, 1676)], [(0, 384054106), (10901, 0), (3, 0)]], 3,
    4⟩, 72057594037927936, 44566174902, 23193597626, ⟨[[(13039963393434, 0), (10618639395, 0), (853068, 0), (0,
    7079), (0, 21)], [(0, 8470996833), (0, 7844033), (1141, 0), (23, 0)], [(6246412, 0), (4969, 0)], [(0, 4333), (0,
    3)]], 3, 4⟩, 17592186044416, 498494,
    10379083284298143112224882308425092907959132449463346050808427066385584730728855572910188796623274163558116437566644567271762324,
    lc0⟩)) (.sx (.leaf ⟨1871, 16, 6182, 933, 16, 4360, ⟨[[(7350301586472960, 0), (0, 3081230532216712), (11452050296,
    0), (0, 661988), (0, 31)], [(15818385247841649, 0), (0, 1461430624544), (2724985, 0), (0, 695)], [(0,
    6136320880536), (9486279, 0), (1796, 0)], [(1593430948, 0), (28864, 0), (3, 0)]], 3, 4⟩, ⟨[[(0,
    7133261915922432), (0, 2434410679684646), (0, 3725428033), (0, 1011095), (0, 63)], [(0, 23932789177959400), (0,
    261421886045), (0, 15077198), (0, 1318)], [(3208020958198, 0), (32278165, 0), (0, 2121)], [(0, 387643156),
    (13023, 0), (3, 0)]], 3, 4⟩, 72057594037927936, 46439149149, 23266641098, ⟨[[(13263717540738, 0), (10918433162,
    0), (908322, 0), (0, 7597), (0, 24)], [(0, 8651553004), (0, 8040104), (865, 0), (23, 0)], [(6368242, 0), (5064,
    0), (1, 0)], [(0, 4399), (0, 3)]], 3, 4⟩, 17592186044416, 469436,
    11899313086734090334579244442670944436106068627939221170218201348367023549390716936794480530161750014070869366624189107071293784,
    lc0⟩) (.leaf ⟨1873, 16, 6157, 921, 16, 4371, ⟨[[(0, 30983856211804160), (0, 3129883113786824), (11523102182, 0),
    (0, 688348), (0, 32)], [(15249385033534348, 0), (0, 1454575285428), (2880109, 0), (0, 690)], [(0, 5913775539195),
    (13054048, 0), (2168, 0)], [(1551699267, 0), (28483, 0), (3, 0)]], 3, 4⟩, ⟨[[(25087691733278720, 0), (0,
    2451501900952375), (0, 4373203347), (0, 1069286), (0, 66)], [(0, 23725051528753161), (0, 259293075061), (0,
    15278531), (0, 1328)], [(3167912519418, 0), (34042095, 0), (0, 1762)], [(0, 376603462), (13634, 0), (3, 0)]], 3,
    4⟩, 72057594037927936, 45024443804, 23136630453, ⟨[[(13026181616814, 0), (10783937672, 0), (1200479, 0), (0,
    6101), (0, 20)], [(0, 8450745911), (0, 7968211), (17, 0), (18, 0)], [(6222215, 0), (4970, 0), (2, 0)], [(0,
    4302), (0, 3)]], 3, 4⟩, 17592186044416, 496953,
    10189735380819996391723951148370009694211709760189525227564307373354506814262669779719478376739786829080231553375650463867098920,
    lc0⟩))) (.leaf ⟨925, 16, 3003, 456, 16, 2192, ⟨[[(10618814052188160, 0), (0, 3148325286246988), (23903322873, 0),
    (0, 2724371), (0, 254)], [(14522220530171118, 0), (0, 2837308564841), (14404352, 0), (0, 5084)], [(0,
    10983569616631), (66436257, 0), (20964, 0), (1, 0)], [(5826213620, 0), (206402, 0), (46, 0)]], 3, 4⟩,
    ⟨[[(2684478535991296, 0), (0, 2472562663484051), (0, 9025908755), (0, 4352915), (0, 531)], [(0,
    23336500121942961), (0, 496116797732), (0, 58110291), (0, 10220), (0, 1)], [(6196494355761, 0), (149607223, 0),
    (0, 9574)], [(0, 1457214382), (103485, 0), (44, 0)]], 3, 4⟩, 72057594037927936, 373670578774, 156398959982,
    ⟨[[(12706988977457, 0), (21075201723, 0), (5517398, 0), (0, 38884), (0, 251)], [(0, 16555170416), (0, 31622656),
    (0, 3629), (222, 0), (2, 0)], [(24684620, 0), (39704, 0), (32, 0)], [(0, 34619), (0, 45)]], 3, 4⟩,
    17592186044416, 7237254,
    12232384297462835459200705338513081554334158105485517248605000023122547167624113380743815677976319778291538632683204947431758746,
    lc0⟩)
theorem c72 : checkR job con0 true ⟨7, 9, 7, 9, 13, 17⟩ 1 28336 t72 615 21 1280 61741 251 64000 = true := by decide +kernel

def t73 : CTree :=
  .sx (.sy (.out ⟨1081, 16, 4010, 7263, 16, 10541, ⟨[[(33850461042769920, 0), (0, 2247890156931681), (11787791021,
    0)], [(24450638640900130, 0), (0, 1947608606669), (11614413, 0)], [(0, 13823695302063), (11758275, 0), (6610,
    0)]], 2, 2⟩, ⟨[[(0, 34532544775520256), (0, 4353053784781898), (36209366113, 0)]], 2, 2⟩, 72057594037927936,
    71294541727724, 4772837762632, ⟨[], 0, 0⟩, 0, 0, 0, lc0⟩ 1 1 79045119919) (.sy (.out ⟨1482, 16, 5554, 14587, 16,
    21238, ⟨[[(0, 25912884608303104), (0, 1550639492511344), (3973541262, 0)], [(32851681697585109, 0), (0,
    1342838700351), (3833849, 0)], [(0, 19138894779091), (11634002, 0), (2349, 0)]], 2, 2⟩, ⟨[[(0,
    11578615178330112), (0, 4357926065301261), (18068361030, 0)]], 2, 2⟩, 72057594037927936, 93428980422009,
    1185853516675, ⟨[], 0, 0⟩, 0, 0, 0, lc0⟩ 1 1 54970844813) (.sy (.out ⟨1822, 16, 6867, 29235, 16, 42631, ⟨[[(0,
    7096340434698240), (0, 956773597430681), (1210633011, 0)], [(39993588223529368, 0), (0, 828385177996), (1154580,
    0)], [(0, 23657618799132), (8293093, 0), (736, 0)]], 2, 2⟩, ⟨[[(0, 35905690220888064), (0, 4360205441561059),
    (9024817994, 0)]], 2, 2⟩, 72057594037927936, 114655437822957, 295540528240, ⟨[], 0, 0⟩, 0, 0, 0, lc0⟩ 1 1
    45319656232) (.out ⟨1830, 16, 6924, 29264, 16, 42719, ⟨[[(22176226986180608, 0), (0, 963495885241244),
    (1208506781, 0)], [(39906548189659794, 0), (0, 834102953175), (1143115, 0)], [(0, 23849605139279), (9110706, 0),
    (749, 0)]], 2, 2⟩, ⟨[[(31790565460541440, 0), (0, 4360140399703463), (9015316032, 0)]], 2, 2⟩, 72057594037927936,
    115755495051235, 294922623596, ⟨[], 0, 0⟩, 0, 0, 0, lc0⟩ 1 1 38725228607)))) (.sy (.sy (.out ⟨1507, 16, 5496,
    14526, 16, 21061, ⟨[[(0, 8829058048901120), (0, 1598611159574462), (4246836334, 0)], [(32305907751754929, 0), (0,
    1335896909860), (4240804, 0)], [(0, 17745162854700), (11699751, 0), (2561, 0)]], 2, 2⟩, ⟨[[(0,
    18964852416184320), (0, 4357811397546599), (18143410749, 0)]], 2, 2⟩, 72057594037927936, 87999939114902,
    1195761873568, ⟨[], 0, 0⟩, 0, 0, 0, lc0⟩ 1 1 49173398922) (.sx (.out ⟨2211, 16, 8148, 14556, 16, 21149, ⟨[[(0,
    26565661447749632), (0, 2342994422019080), (6122815901, 0)], [(23729392129117943, 0), (0, 987355290380),
    (3017518, 0)], [(0, 6684353070582), (4846856, 0), (939, 0)]], 2, 2⟩, ⟨[[(551406196752384, 0), (0,
    4357784901770649), (18105459335, 0)]], 2, 2⟩, 72057594037927936, 17518126760088, 1190769299251, ⟨[], 0, 0⟩, 0, 0,
    0, lc0⟩ 1 1 43166865391) (.sy (.out ⟨3072, 16, 11232, 29113, 16, 42277, ⟨[[(0, 5758440341602304), (0,
    1644566392916383), (2164082698, 0)], [(32120405481374988, 0), (0, 680764844204), (1075434, 0)], [(0,
    8914250538958), (3782891, 0), (343, 0)]], 2, 2⟩, ⟨[[(0, 18604807187595264), (0, 4360167129300597), (9062403751,
    0)]], 2, 2⟩, 72057594037927936, 22173491137202, 298010526325, ⟨[], 0, 0⟩, 0, 0, 0, lc0⟩ 1 1 30309746795) (.out
    ⟨3082, 16, 11311, 29143, 16, 42365, ⟨[[(0, 269578546380800), (0, 1653955267600175), (2159551683, 0)],
    [(32002447636707956, 0), (0, 684473194453), (1067931, 0)], [(0, 8974948961533), (4158287, 0), (349, 0)]], 2, 2⟩,
    ⟨[[(0, 4826867918700544), (0, 4360139518549371), (9052900715, 0)]], 2, 2⟩, 72057594037927936, 22357023228396,
    297387524863, ⟨[], 0, 0⟩, 0, 0, 0, lc0⟩ 1 1 23532592103)))) (.sx (.sy (.sy (.out ⟨3048, 16, 11298, 29174, 16,
    42454, ⟨[[(21514512225435648, 0), (0, 1621220987816725), (2093337053, 0)], [(32388262011047491, 0), (0,
    682974638348), (1022601, 0)], [(0, 9265794288911), (3854547, 0), (331, 0)]], 2, 2⟩, ⟨[[(0, 18119950941028352),
    (0, 4360205273072191), (9043611120, 0)]], 2, 2⟩, 72057594037927936, 22860073493141, 296772949706, ⟨[], 0, 0⟩, 0,
    0, 0, lc0⟩ 1 1 33800983910) (.out ⟨3059, 16, 11379, 29204, 16, 42542, ⟨[[(0, 15494207682215936), (0,
    1630737475847833), (2088212549, 0)], [(32275413630716623, 0), (0, 686845190218), (1013782, 0)], [(0,
    9330191433894), (4218592, 0), (337, 0)]], 2, 2⟩, ⟨[[(0, 13440019528679424), (0, 4360158829305328), (9034108379,
    0)]], 2, 2⟩, 72057594037927936, 23054862203398, 296152493060, ⟨[], 0, 0⟩, 0, 0, 0, lc0⟩ 1 1 26649331028)) (.leaf
    ⟨2833, 16, 8496, 1379, 16, 6318, ⟨[[(0, 22987817960701952), (0, 2430481532269970), (6143724350, 0), (0, 83627),
    (0, 2)], [(23712336269286766, 0), (0, 1023398147703), (2953396, 0), (0, 67)], [(0, 6963765323705), (7063777, 0),
    (1024, 0)], [(1836147320, 0), (8695, 0), (1, 0)]], 3, 4⟩, ⟨[[(0, 12629663604408320), (0, 1797688370255166),
    (283770861, 0), (0, 119938), (0, 4)], [(0, 31571783592788846), (0, 130692801772), (0, 2438837), (0, 138)],
    [(4078942964846, 0), (31831838, 0), (0, 108)], [(0, 505765295), (1924, 0), (1, 0)]], 3, 4⟩, 72057594037927936,
    49446913153, 15174905041, ⟨[[(11998724386770, 0), (6616540803, 0), (392584, 0), (0, 1636), (0, 3)], [(0,
    4915355248), (0, 3190677), (591, 0), (4, 0)], [(2351107, 0), (1311, 0), (0, 1)], [(0, 1070), (0, 1)]], 3, 4⟩,
    17592186044416, 161888,
    10771733859865937105625182020688766458142026817571385717296775035690723160312552453749188225982770144533760098348972363956074495,
    lc0⟩)) (.leaf ⟨1822, 16, 5422, 976, 16, 4512, ⟨[[(0, 1244826985611264), (0, 3161065198218657), (16168825978, 0),
    (0, 431071), (0, 20)], [(14929600216395541, 0), (0, 1307379922256), (7890941, 0), (0, 327)], [(0, 4299430938569),
    (9680710, 0), (2763, 0)], [(1144172827, 0), (10165, 0), (1, 0)]], 3, 4⟩, ⟨[[(7378314441793536, 0), (0,
    2575561636701481), (783752667, 0), (0, 695686), (0, 44)], [(0, 22281360018161435), (0, 181118327079), (0,
    6692001), (0, 766)], [(2862240766475, 0), (45852933, 0), (0, 119)], [(0, 353242818), (2548, 0), (2, 0)]], 3, 4⟩,
    72057594037927936, 34111561448, 17040147070, ⟨[[(11811071633352, 0), (9152616765, 0), (902179, 0), (0, 3891), (0,
    10)], [(0, 7481826194), (0, 6902880), (1307, 0), (16, 0)], [(5563873, 0), (4423, 0), (0, 2)], [(0, 3939), (0,
    3)]], 3, 4⟩, 17592186044416, 435633,
    8437239865413773623342463886282165604996643221725850425232570752060047958476174633733262110083488116381627261177575625981882017,
    lc0⟩)))
theorem c73 : checkR job con0 true ⟨7, 9, 7, 9, 13, 17⟩ 1 28336 t73 657 21 1280 60235 251 64000 = true := by decide +kernel

def t74 : CTree :=
  .sx (.sy (.sx (.sy (.out ⟨2199, 16, 8391, 14647, 16, 21415, ⟨[[(0, 5242874813808640), (0, 2309702970292670),
    (5710944952, 0)], [(24106505572825810, 0), (0, 1009016715405), (2654046, 0)], [(0, 7342635717036), (5585388, 0),
    (884, 0)]], 2, 2⟩, ⟨[[(31361480913453056, 0), (0, 4357889061931270), (17993307302, 0)]], 2, 2⟩,
    72057594037927936, 19038303674759, 1176027086837, ⟨[], 0, 0⟩, 0, 0, 0, lc0⟩ 1 1 36508666661) (.sy (.out ⟨3017,
    16, 11578, 29356, 16, 42986, ⟨[[(33806487874666496, 0), (0, 1590534696419993), (1938037008, 0)],
    [(32738769042451401, 0), (0, 694768906113), (887285, 0)], [(0, 10128379359765), (4315925, 0), (309, 0)]], 2, 2⟩,
    ⟨[[(0, 4568163584049152), (0, 4360195163928632), (8987443216, 0)]], 2, 2⟩, 72057594037927936, 24704403264366,
    293097767283, ⟨[], 0, 0⟩, 0, 0, 0, lc0⟩ 1 1 27862267478) (.sy (.out ⟨3711, 16, 14280, 58773, 16, 86128,
    ⟨[[(30381515461492736, 0), (0, 979965626047702), (592520736, 0)], [(40056662534120198, 0), (0, 428046154288),
    (269126, 0)], [(0, 12490017733949), (2805750, 0), (96, 0)]], 2, 2⟩, ⟨[[(0, 14606555371536384), (0,
    4361334990495507), (4491410737, 0)]], 2, 2⟩, 72057594037927936, 30224621661613, 73161306444, ⟨[], 0, 0⟩, 0, 0, 0,
    lc0⟩ 1 1 23059151484) (.out ⟨3720, 16, 14341, 58803, 16, 86217, ⟨[[(30377822386290688, 0), (0, 983556044124131),
    (591613979, 0)], [(40012043713290240, 0), (0, 429604804453), (267246, 0)], [(0, 12541932589541), (2914862, 0),
    (97, 0)]], 2, 2⟩, ⟨[[(9391861763407872, 0), (0, 4361331219242461), (4489086121, 0)]], 2, 2⟩, 72057594037927936,
    30375842359125, 73085441422, ⟨[], 0, 0⟩, 0, 0, 0, lc0⟩ 1 1 19867939739)))) (.sy (.sy (.out ⟨3044, 16, 11522,
    29295, 16, 42808, ⟨[[(7694828690604032, 0), (0, 1615865306681366), (2010036956, 0)], [(32442202773309434, 0), (0,
    692874536182), (946702, 0)], [(0, 9758158750581), (4517941, 0), (328, 0)]], 2, 2⟩, ⟨[[(209236848541696, 0), (0,
    4360168105808348), (9006025348, 0)]], 2, 2⟩, 72057594037927936, 23970769030708, 294313048868, ⟨[], 0, 0⟩, 0, 0,
    0, lc0⟩ 1 1 23799810804) (.leaf ⟨3898, 16, 11837, 1716, 16, 7848, ⟨[[(14238788822564864, 0), (0,
    1657979306108954), (2042789079, 0), (0, 14914)], [(32972051657957711, 0), (0, 710849891118), (953931, 0), (0,
    13)], [(0, 10022521945970), (4981239, 0), (340, 0)], [(2625211645, 0), (6878, 0)]], 3, 4⟩, ⟨[[(23604075690131456,
    0), (0, 1112854239255087), (50351477, 0), (0, 19220)], [(0, 39751503948632229), (0, 84820798251), (0, 837114),
    (0, 23)], [(5171366233776, 0), (19486897, 0), (0, 55)], [(0, 641673923), (1553, 0)]], 3, 4⟩, 72057594037927936,
    70440047072, 19576450493, ⟨[[(12191320814027, 0), (5419838991, 0), (231869, 0), (0, 953), (0, 1)], [(0,
    3655548186), (0, 1896369), (308, 0), (2, 0)], [(1273011, 0), (567, 0)], [(0, 421)]], 3, 4⟩, 17592186044416,
    87711,
    10950497465160763663251454586470817783074290237854212720888145697739260185077549677708590030759502634525023934258123986763549255,
    lc0⟩)) (.leaf ⟨2843, 16, 8672, 1362, 16, 6270, ⟨[[(15021137183834112, 0), (0, 2424861069526018), (5885859244, 0),
    (0, 90525), (0, 2)], [(23764164454662077, 0), (0, 1039489502797), (2711204, 0), (0, 76)], [(0, 7339790507794),
    (8055868, 0), (1014, 0)], [(1927162507, 0), (10563, 0), (1, 0)]], 3, 4⟩, ⟨[[(0, 4738273995472896), (0,
    1778116456051957), (18740689, 0), (0, 128937), (0, 4)], [(0, 31810070461740300), (0, 137609140568), (0, 2843639),
    (0, 152)], [(4143256440896, 0), (31006803, 0), (0, 172)], [(0, 511629712), (2953, 0), (1, 0)]], 3, 4⟩,
    72057594037927936, 52143265461, 15832298374, ⟨[[(12194155019862, 0), (6818569590, 0), (405010, 0), (0, 1807), (0,
    3)], [(0, 5021293394), (0, 3284846), (546, 0), (5, 0)], [(2401127, 0), (1353, 0)], [(0, 1090), (0, 1)]], 3, 4⟩,
    17592186044416, 184149,
    8420668852601680613009336463277340125330895517478947500704016864733342964276624799164835356817717164530231174956176461199334691,
    lc0⟩))) (.leaf ⟨1416, 16, 4368, 671, 16, 3112, ⟨[[(0, 2953683915259904), (0, 2412075063186019), (11325477774, 0),
    (0, 384430), (0, 18)], [(23465403371492334, 0), (0, 2087143425475), (10037283, 0), (0, 658)], [(0,
    15021604707279), (35753187, 0), (8103, 0)], [(7888694537, 0), (95147, 0), (12, 0)]], 3, 4⟩,
    ⟨[[(27207122302894080, 0), (0, 1762291306394828), (0, 436524884), (0, 549905), (0, 35)], [(0, 31855601601420044),
    (0, 284781631711), (0, 12675362), (0, 1301)], [(8335947985981, 0), (121134332, 0), (0, 1652)], [(0, 2046604528),
    (30644, 0), (11, 0)]], 3, 4⟩, 72057594037927936, 427759451854, 129205998023, ⟨[[(12286256541407, 0),
    (13933919338, 0), (1803109, 0), (0, 14808), (0, 57)], [(0, 10210756746), (0, 13530415), (3485, 0), (71, 0)],
    [(9828985, 0), (11229, 0), (0, 4)], [(0, 8968), (0, 9)]], 3, 4⟩, 17592186044416, 1571532,
    11194865221950028059943314648990393371618524755447103636351989136442707543252534256226498894531586149142009109087814851624322694,
    lc0⟩)) (.leaf ⟨909, 16, 2760, 475, 16, 2242, ⟨[[(0, 27194748852117504), (0, 3166476103944173), (30493925528, 0),
    (0, 1985612), (0, 185)], [(14386621088066530, 0), (0, 2640169596059), (28422898, 0), (0, 3064)], [(0,
    8884878436590), (53804455, 0), (23508, 0), (2, 0)], [(4748134987, 0), (104259, 0), (28, 0)]], 3, 4⟩, ⟨[[(0,
    6812342252023808), (0, 2555621477047801), (0, 1526904854), (0, 3271273), (0, 412)], [(0, 22404103320147849), (0,
    386552358168), (0, 34019479), (0, 7101), (0, 1)], [(5801618188486, 0), (180581058, 0), (0, 1064), (1, 0)], [(0,
    1409340042), (40104, 0), (30, 0)]], 3, 4⟩, 72057594037927936, 299953217811, 147957923323, ⟨[[(11901557862057, 0),
    (18856392345, 0), (4443906, 0), (0, 29792), (0, 157)], [(0, 15236475146), (0, 28753866), (3901, 0), (216, 0), (2,
    0)], [(22841709, 0), (37121, 0), (0, 1), (0, 1)], [(0, 32500), (0, 46)]], 3, 4⟩, 17592186044416, 6834205,
    11188957138548789180624915189021499369729936793081273692777504804056949298421202237881920345176471281609628099305106724162644980,
    lc0⟩)
theorem c74 : checkR job con0 true ⟨7, 9, 7, 9, 13, 17⟩ 1 28336 t74 657 21 1280 60737 251 64000 = true := by decide +kernel

def t75 : CTree :=
  .sy (.sx (.leaf ⟨900, 16, 2643, 484, 16, 2263, ⟨[[(0, 6875722776313856), (0, 3170279202620494), (33165536222, 0),
    (0, 1681007), (0, 153)], [(14360219318414848, 0), (0, 2554761642890), (33099316, 0), (0, 2350)], [(0,
    7973899792819), (39063072, 0), (23005, 0), (2, 0)], [(4303600190, 0), (66927, 0), (21, 0)]], 3, 4⟩,
    ⟨[[(28319309081894912, 0), (0, 2595136238410357), (1815119325, 0), (0, 2800903), (0, 355)], [(0,
    21949177251698048), (0, 345254223642), (0, 24599389), (0, 5789), (0, 1)], [(5587230482546, 0), (185693203, 0),
    (1063, 0), (1, 0)], [(0, 1372665452), (16165, 0), (24, 0)]], 3, 4⟩, 72057594037927936, 264467445088,
    143230530477, ⟨[[(11533721424212, 0), (17875787209, 0), (4147496, 0), (0, 25170), (0, 119)], [(0, 14656473033),
    (0, 27464344), (6348, 0), (204, 0), (1, 0)], [(22049036, 0), (35674, 0), (0, 16), (0, 1)], [(0, 31602), (0,
    46)]], 3, 4⟩, 17592186044416, 6053889,
    10526806531386344454786846586153931214086704080101902866899933249886217095596775675312107313636859861188595980231048323774453822,
    lc0⟩) (.leaf ⟨898, 16, 2613, 474, 16, 2276, ⟨[[(0, 16110027183783936), (0, 3240303397799607), (34205113935, 0),
    (0, 1756409), (0, 159)], [(13557194989150982, 0), (0, 2522185771494), (34742392, 0), (0, 2170)], [(0,
    7359271017821), (46354692, 0), (25312, 0), (2, 0)], [(4065942430, 0), (56509, 0), (20, 0)]], 3, 4⟩,
    ⟨[[(32055564425854976, 0), (0, 2624297518260642), (790070847, 0), (0, 3059646), (0, 382)], [(0,
    21610443611223537), (0, 331460529452), (0, 24526393), (0, 5727), (0, 1)], [(5449101305725, 0), (188915140, 0),
    (4016, 0), (1, 0)], [(0, 1322283202), (17752, 0), (23, 0)]], 3, 4⟩, 72057594037927936, 249297273703,
    141147826913, ⟨[[(11189869396424, 0), (17432575627, 0), (4941912, 0), (0, 18306), (0, 84)], [(0, 14114473881),
    (0, 27105665), (0, 115), (134, 0), (1, 0)], [(21319571, 0), (35289, 0), (5, 0)], [(0, 30677), (0, 44)]], 3, 4⟩,
    17592186044416, 5738006,
    6667418785276294114573840413925847436576517286778253656538456733058032036894814923878855137331455842458294557810727173543286786,
    lc0⟩)) (.leaf ⟨714, 16, 2140, 324, 16, 1592, ⟨[[(0, 7384687653879808), (0, 2583947706080764), (25109929209, 0),
    (0, 1683221), (0, 155)], [(20659355170017286, 0), (0, 4081827353855), (49178026, 0), (0, 4344)], [(0,
    24866416142223), (223679865, 0), (89008, 0), (8, 0)], [(27489829562, 0), (553354, 0), (168, 0)]], 3, 4⟩, ⟨[[(0,
    33470244625096704), (0, 1831472659567745), (0, 2603887494), (0, 2637965), (0, 323)], [(0, 30802567186510647), (0,
    515956131493), (0, 48009965), (0, 9899), (0, 1)], [(15747581096226, 0), (535259861, 0), (12535, 0), (4, 0)], [(0,
    7475121571), (241994, 0), (161, 0)]], 3, 4⟩, 72057594037927936, 3079538024478, 823894088511, ⟨[[(11379166035504,
    0), (25809912691, 0), (11431747, 0), (0, 51959), (0, 378)], [(0, 18295885034), (0, 50602258), (0, 12139), (401,
    0), (5, 0)], [(35029345, 0), (82269, 0), (72, 0), (0, 1)], [(0, 63700), (0, 124)]], 3, 4⟩, 17592186044416,
    18032925,
    9369067057022757572472359789880572479956119797238060309192556514262010011009319483910694813986947593990694059410754889895287774,
    lc0⟩)
theorem c75 : checkR job con0 true ⟨7, 9, 7, 9, 13, 17⟩ 1 28336 t75 699 21 1280 30243 251 32000 = true := by decide +kernel

def t76 : CTree :=
  .sx (.sy (.sx (.leaf ⟨917, 16, 2880, 465, 16, 2218, ⟨[[(2675400231436288, 0), (0, 3159170940618937), (27409894997,
    0), (0, 2334465), (0, 218)], [(14439023030001448, 0), (0, 2733888052990), (22276924, 0), (0, 3967)], [(0,
    9883501419549), (63831878, 0), (22999, 0), (2, 0)], [(5253141904, 0), (150426, 0), (36, 0)]], 3, 4⟩,
    ⟨[[(27178884759474176, 0), (0, 2514417384207964), (0, 5145510072), (0, 3789830), (0, 471)], [(0,
    22862652012965077), (0, 436467136897), (0, 45158623), (0, 8580), (0, 1)], [(6005591175068, 0), (169207841, 0),
    (0, 4477)], [(0, 1437549401), (69139, 0), (36, 0)]], 3, 4⟩, 72057594037927936, 335881767884, 151082554126,
    ⟨[[(12285538287308, 0), (19927885863, 0), (4953031, 0), (0, 34045), (0, 199)], [(0, 15866006073), (0, 30173626),
    (177, 0), (219, 0), (2, 0)], [(23729218, 0), (38521, 0), (16, 0), (0, 1)], [(0, 33533), (0, 46)]], 3, 4⟩,
    17592186044416, 6982271,
    11361603542924893521955431226873561408207843985011350205597423617134111810164119797725733173448112609493139421219291748776244700,
    lc0⟩) (.leaf ⟨916, 16, 2850, 455, 16, 2230, ⟨[[(0, 30345246170693632), (0, 3239767836522684), (28093053189, 0),
    (0, 2471861), (0, 230)], [(13494144482461150, 0), (0, 2699331577961), (24145723, 0), (0, 3766)], [(0,
    9140359251135), (81369176, 0), (27264, 0), (2, 0)], [(4964783754, 0), (139837, 0), (36, 0)]], 3, 4⟩, ⟨[[(0,
    25698118082244608), (0, 2546146567365918), (0, 7085506846), (0, 4171844), (0, 507)], [(0, 22486665589180038), (0,
    424163928494), (0, 45588059), (0, 8580), (0, 1)], [(5860555239913, 0), (179099557, 0), (80, 0), (1, 0)], [(0,
    1373833178), (72626, 0), (36, 0)]], 3, 4⟩, 72057594037927936, 320670144884, 143374493867, ⟨[[(11906139033925, 0),
    (19427846762, 0), (5936011, 0), (0, 23715), (0, 139)], [(0, 15255016714), (0, 29593397), (0, 5955), (135, 0), (1,
    0)], [(22892058, 0), (37375, 0), (30, 0)], [(0, 32494), (0, 43)]], 3, 4⟩, 17592186044416, 6316439,
    8534218235160056776864651270676279645302347504738801917118800453971716766144509813678786334769935502775463375172286707638327841,
    lc0⟩)) (.sx (.leaf ⟨924, 16, 2974, 445, 16, 2203, ⟨[[(24180432980140032, 0), (0, 3235806960136559), (24311644252,
    0), (0, 2906828), (0, 270)], [(13498345885796378, 0), (0, 2803312179155), (16251900, 0), (0, 4894)], [(0,
    10166792126480), (91111038, 0), (26557, 0), (2, 0)], [(5512680190, 0), (197117, 0), (46, 0)]], 3, 4⟩, ⟨[[(0,
    13950637912870912), (0, 2505639023977565), (0, 11537759483), (0, 4806462), (0, 573)], [(0, 22938094305945783),
    (0, 485416127514), (0, 58974788), (0, 10275), (0, 1)], [(6048256310198, 0), (163800025, 0), (0, 4025)], [(0,
    1383589478), (108917, 0), (44, 0)]], 3, 4⟩, 72057594037927936, 358016087111, 147422553577, ⟨[[(12301645724917,
    0), (20558626596, 0), (6671175, 0), (0, 25922), (0, 172)], [(0, 15911116293), (0, 30961093), (0, 9829), (127, 0),
    (1, 0)], [(23822939, 0), (38238, 0), (42, 0)], [(0, 33598), (0, 41)]], 3, 4⟩, 17592186044416, 6685084,
    10038490920054307612725168919625739208165604860035738253289742030490978832421505342428811730687154458507161696772486004440562971,
    lc0⟩) (.leaf ⟨922, 16, 2943, 434, 16, 2214, ⟨[[(17696131625582592, 0), (0, 3318416470309690), (24783453617, 0),
    (0, 3075783), (0, 285)], [(12540966522032088, 0), (0, 2765500840758), (18533213, 0), (0, 4634)], [(0,
    9389038179521), (114182728, 0), (32074, 0), (3, 0)], [(5209316775, 0), (185899, 0), (46, 0)]], 3, 4⟩, ⟨[[(0,
    18866581259100160), (0, 2538340881000064), (0, 14088534171), (0, 5263179), (0, 616)], [(0, 22549265318384744),
    (0, 473427457674), (0, 59375096), (0, 10269), (0, 1)], [(5907902832981, 0), (178585488, 0), (1508, 0), (1, 0)],
    [(0, 1318136337), (111843, 0), (44, 0)]], 3, 4⟩, 72057594037927936, 345357416390, 139197975570,
    ⟨[[(11914173873121, 0), (20036872458, 0), (7356780, 0), (0, 17354), (0, 116)], [(0, 15311360738), (0, 30248990),
    (0, 12876), (65, 0), (1, 0)], [(23055960, 0), (36778, 0), (44, 0)], [(0, 32751), (0, 39)]], 3, 4⟩,
    17592186044416, 5672731,
    7317929475762721375467075736973825777624561514686977442402268539335009852055944129532926301501382033568480838765250822131187982,
    lc0⟩))) (.sy (.leaf ⟨728, 16, 2238, 309, 16, 1581, ⟨[[(0, 10607279892406272), (0, 2677330202261691),
    (23346946849, 0), (0, 2119346), (0, 196)], [(19474885317342165, 0), (0, 4220750202907), (43983015, 0), (0,
    5373)], [(0, 25863191972240), (333961550, 0), (106723, 0), (10, 0)], [(29087114543, 0), (776948, 0), (220, 0)]],
    3, 4⟩, ⟨[[(0, 27740941703704576), (0, 1823566339265041), (0, 7053043176), (0, 3337696), (0, 396)], [(0,
    30860277929472835), (0, 568201910202), (0, 64026422), (0, 11934), (0, 1)], [(15909285627783, 0), (547300041, 0),
    (19143, 0), (5, 0)], [(0, 7259719647), (418048, 0), (195, 0)]], 3, 4⟩, 72057594037927936, 3313719570579,
    831174821430, ⟨[[(11376250461133, 0), (26599532421, 0), (13746925, 0), (0, 40318), (0, 325)], [(0, 18097073314),
    (0, 51127401), (0, 26673), (206, 0), (4, 0)], [(34324400, 0), (79457, 0), (118, 0)], [(0, 61685), (0, 109)]], 3,
    4⟩, 17592186044416, 17541423,
    8719067189743888537976016436382865365198675152325072045306509024084119073504631549845490688050964711771721985844329556351574205,
    lc0⟩) (.sx (.leaf ⟨919, 16, 2910, 423, 16, 2224, ⟨[[(0, 6476797262094336), (0, 3395842950860703), (25334532153,
    0), (0, 3228155), (0, 298)], [(11647348567793632, 0), (0, 2724053203743), (21229635, 0), (0, 4305)], [(0,
    8649646423182), (135388150, 0), (37424, 0), (4, 0)], [(4915624438, 0), (172770, 0), (45, 0)]], 3, 4⟩, ⟨[[(0,
    26042183606505472), (0, 2569454813582357), (0, 16651284984), (0, 5717891), (0, 658)], [(0, 22159498503395154),
    (0, 459901201485), (0, 59285955), (0, 10196), (0, 1)], [(5771892444735, 0), (193575948, 0), (6967, 0), (2, 0)],
    [(0, 1259686460), (112428, 0), (43, 0)]], 3, 4⟩, 72057594037927936, 333274918816, 133586900927,
    ⟨[[(11547392728393, 0), (19531183978, 0), (7747849, 0), (0, 11876), (0, 77)], [(0, 14758808906), (0, 29567769),
    (0, 13993), (27, 0), (1, 0)], [(22383748, 0), (35477, 0), (42, 0)], [(0, 32066), (0, 37)]], 3, 4⟩,
    17592186044416, 5860431,
    10559731268032286992627444191978882413388063512508283884203146259457405630249965654326275586347258540557936977518918220295664059,
    lc0⟩) (.sy (.leaf ⟨1509, 16, 4713, 591, 16, 3174, ⟨[[(0, 12528370283659264), (0, 2847850711841163), (11153803610,
    0), (0, 657672), (0, 30)], [(18280465791311497, 0), (0, 2201141105051), (10555667, 0), (0, 769)], [(0,
    13059817727318), (118037946, 0), (16757, 0), (1, 0)], [(7560681227, 0), (120645, 0), (17, 0)]], 3, 4⟩,
    ⟨[[(26436265894559744, 0), (0, 1843820769376656), (0, 6021885063), (0, 1034896), (0, 59)], [(0,
    30864468704776113), (0, 306008993719), (0, 19548929), (0, 1707)], [(7979181154074, 0), (146053976, 0), (4046,
    0)], [(0, 1735547775), (71626, 0), (14, 0)]], 3, 4⟩, 72057594037927936, 430186689805, 103279340226,
    ⟨[[(11193496879726, 0), (13329651724, 0), (3855653, 0), (0, 3200), (0, 13)], [(0, 8613721050), (0, 12307377), (0,
    4082), (2, 0)], [(7968257, 0), (8926, 0), (7, 0)], [(0, 6975), (0, 6)]], 3, 4⟩, 17592186044416, 747837,
    9559117569354850605817035691873470074483493934324146175030785061757181228817020964049950269367660646255773585856589784537526965,
    lc0⟩) (.sx (.leaf ⟨1850, 16, 5864, 821, 16, 4467, ⟨[[(0, 33774407126122496), (0, 3501408196791544), (12467143543,
    0), (0, 886232), (0, 41)], [(10857984701036840, 0), (0, 1364870694634), (5582397, 0), (0, 533)], [(0,
    4117703153645), (40788873, 0), (5455, 0)], [(1200298107, 0), (21990, 0), (3, 0)]], 3, 4⟩, ⟨[[(0,
    32955476992049152), (0, 2599740795996413), (0, 10469264333), (0, 1604360), (0, 90)], [(0, 21950027849200277), (0,
    232285165023), (0, 15716718), (0, 1323)], [(2852496558650, 0), (51972107, 0), (1485, 0)], [(0, 301729949),
    (15289, 0), (3, 0)]], 3, 4⟩, 72057594037927936, 40728832362, 19269689698, ⟨[[(11284263598221, 0), (9624625254,
    0), (2029111, 0), (0, 1015), (0, 3)], [(0, 7136914339), (0, 7220194), (0, 1796)], [(5411847, 0), (4221, 0), (2,
    0)], [(0, 3876), (0, 2)]], 3, 4⟩, 17592186044416, 297729,
    10259774538823858036469089347320102920930930405491849946757122142185076858481347961242494136155797251558480699455805993070268793,
    lc0⟩) (.leaf ⟨1844, 16, 5827, 810, 16, 4478, ⟨[[(3689727858655232, 0), (0, 3536205178682915), (12631239265, 0),
    (0, 902351), (0, 41)], [(10452031361199127, 0), (0, 1352740064335), (6017924, 0), (0, 504)], [(0, 3943226831133),
    (43228744, 0), (5787, 0)], [(1164406332, 0), (20951, 0), (3, 0)]], 3, 4⟩, ⟨[[(0, 13872634394345472), (0,
    2615829629577080), (0, 11153944656), (0, 1663723), (0, 93)], [(0, 21765468855687220), (0, 228400001917), (0,
    15615970), (0, 1312)], [(2821833123442, 0), (54018430, 0), (1831, 0)], [(0, 295819623), (15113, 0), (3, 0)]], 3,
    4⟩, 72057594037927936, 39739926201, 17965714048, ⟨[[(11119550229019, 0), (9507192881, 0), (2045424, 0), (0, 861),
    (0, 3)], [(0, 7026970847), (0, 7153932), (0, 1764)], [(5359432, 0), (4167, 0), (2, 0)], [(0, 3862), (0, 2)]], 3,
    4⟩, 17592186044416, 332512,
    10699964163895550934079381922643902524696991914703132887653265823645113976815880450172884627546820946570195013687618789238822318,
    lc0⟩)))))
theorem c76 : checkR job con0 true ⟨7, 9, 7, 9, 13, 17⟩ 1 28336 t76 339 21 640 30745 251 32000 = true := by decide +kernel

def t77 : CTree :=
  .sy (.sy (.sy (.out ⟨2802, 16, 12278, 30025, 16, 44966, ⟨[[(0, 9145996959711232), (0, 1404573075225187),
    (1303637357, 0)], [(34877090224516315, 0), (0, 725356754768), (211510, 0)], [(0, 13859101252739), (0, 2491236),
    (35, 0)]], 2, 2⟩, ⟨[[(0, 27226658399322112), (0, 4360255376159366), (8787524413, 0)]], 2, 2⟩, 72057594037927936,
    32678856966464, 280196304868, ⟨[], 0, 0⟩, 0, 0, 0, lc0⟩ 1 1 33199477327) (.out ⟨2813, 16, 12368, 30055, 16,
    45057, ⟨[[(0, 31778520719228928), (0, 1413564188863951), (1285634852, 0)], [(34765998303110619, 0), (0,
    730477087736), (178571, 0)], [(0, 13961942127301), (0, 2475714), (32, 0)]], 2, 2⟩, ⟨[[(0, 1625623986962432), (0,
    4360252317216481), (8778636767, 0)]], 2, 2⟩, 72057594037927936, 32999330399275, 279629835375, ⟨[], 0, 0⟩, 0, 0,
    0, lc0⟩ 1 1 27711655192)) (.sy (.out ⟨2823, 16, 12459, 30085, 16, 45148, ⟨[[(24296017742823424, 0), (0,
    1422678701276037), (1266677926, 0)], [(34652440795181245, 0), (0, 735688889653), (144336, 0)], [(0,
    14065914177556), (0, 2464187), (27, 0)]], 2, 2⟩, ⟨[[(19558439540490240, 0), (0, 4360240380599412), (8769749212,
    0)]], 2, 2⟩, 72057594037927936, 33325534804360, 279064388620, ⟨[], 0, 0⟩, 0, 0, 0, lc0⟩ 1 1 23244640901) (.sy
    (.out ⟨3394, 16, 15016, 60232, 16, 90456, ⟨[[(0, 12717395444793344), (0, 856759916516832), (375106956, 0)],
    [(41430460245284638, 0), (0, 443278982908), (35294, 0)], [(0, 16953819927929), (0, 1473238), (7, 0)]], 2, 2⟩,
    ⟨[[(0, 32321257976365056), (0, 4361358692875337), (4382680433, 0)]], 2, 2⟩, 72057594037927936, 39864402253992,
    69660907572, ⟨[], 0, 0⟩, 0, 0, 0, lc0⟩ 1 1 19411591767) (.out ⟨3403, 16, 15082, 60262, 16, 90547, ⟨[[(0,
    18248249212829696), (0, 860149611486151), (372303221, 0)], [(41389064376753097, 0), (0, 445194530992), (29882,
    0)], [(0, 17029078277053), (0, 1472696), (7, 0)]], 2, 2⟩, ⟨[[(0, 18306530823110656), (0, 4361344973502180),
    (4380456907, 0)]], 2, 2⟩, 72057594037927936, 40087661328447, 69590555011, ⟨[], 0, 0⟩, 0, 0, 0, lc0⟩ 1 1
    16918556303)))) (.sy (.sx (.sy (.out ⟨4272, 16, 19018, 30146, 16, 45331, ⟨[[(0, 9660145796972544), (0,
    2156062784269288), (1842547383, 0)], [(26110288946038260, 0), (0, 561286625085), (53798, 0)], [(0,
    5411614097908), (0, 1129008), (2, 0)]], 2, 2⟩, ⟨[[(24591717687099392, 0), (0, 4360286276628755), (8752167879,
    0)]], 2, 2⟩, 72057594037927936, 6840186910065, 277943466480, ⟨[], 0, 0⟩, 0, 0, 0, lc0⟩ 1 1 17254205608) (.sy
    (.out ⟨5702, 16, 25452, 60353, 16, 90822, ⟨[[(987336135737344, 0), (0, 1441821559986139), (604991936, 0)],
    [(34660879871790257, 0), (0, 375566390762), (10747, 0)], [(0, 7242991590890), (0, 754640)]], 2, 2⟩,
    ⟨[[(34303954389565440, 0), (0, 4361386758895619), (4373882942, 0)]], 2, 2⟩, 72057594037927936, 8594181450169,
    69381236266, ⟨[], 0, 0⟩, 0, 0, 0, lc0⟩ 1 1 13852900210) (.out ⟨5713, 16, 25547, 60384, 16, 90913,
    ⟨[[(15601722106118144, 0), (0, 1446597409205328), (599453983, 0)], [(34601016434866548, 0), (0, 376959834059),
    (5865, 0)], [(0, 7270406360522), (0, 757284)]], 2, 2⟩, ⟨[[(0, 32538895725887488), (0, 4361364232257480),
    (4371659490, 0)]], 2, 2⟩, 72057594037927936, 8637728404296, 69310984132, ⟨[], 0, 0⟩, 0, 0, 0, lc0⟩ 1 1
    11810484620))) (.leaf ⟨3774, 16, 12964, 1887, 16, 8596, ⟨[[(2393878123151360, 0), (0, 2970333849330320),
    (4966360549, 0), (0, 170609), (0, 4)], [(17395141017548590, 0), (0, 765297881395), (108837, 0), (0, 105)], [(0,
    3630645603473), (0, 968389), (30, 0)], [(461601166, 0), (4526, 0)]], 3, 4⟩, ⟨[[(5172224089882624, 0), (0,
    2362903825062922), (0, 1875294872), (0, 249816), (0, 8)], [(0, 24864353147853666), (0, 147251532124), (0,
    4397273), (0, 184)], [(1687478258200, 0), (5002967, 0), (0, 487)], [(0, 105469206), (1871, 0)]], 3, 4⟩,
    72057594037927936, 6762386457, 3313466747, ⟨[[(14193024951744, 0), (5854138645, 0), (14326, 0), (0, 1673), (0,
    3)], [(0, 4693865605), (0, 2110605), (370, 0), (2, 0)], [(1715456, 0), (671, 0)], [(0, 587)]], 3, 4⟩,
    17592186044416, 103511,
    13898756050373171195268237682368351199963869007336056521154600768134616465761980294350531752698443411186208950101846580026898813,
    lc0⟩)) (.leaf ⟨2836, 16, 9809, 1273, 16, 5825, ⟨[[(10714003357564928, 0), (0, 2231621964195835), (3559605357, 0),
    (0, 133437), (0, 3)], [(25973871159655104, 0), (0, 1157988197948), (0, 82155), (0, 167)], [(0, 11078426164826),
    (0, 3755819), (23, 0)], [(2823557345, 0), (28670, 0), (1, 0)]], 3, 4⟩, ⟨[[(0, 33921305861652480), (0,
    1600444923509719), (0, 1467533705), (0, 177626), (0, 6)], [(0, 33896293158595547), (0, 205994768001), (0,
    6314465), (0, 260)], [(4598414259247, 0), (11857069, 0), (0, 1409)], [(0, 571885612), (11068, 0), (1, 0)]], 3,
    4⟩, 72057594037927936, 72698109435, 28649251687, ⟨[[(14265597355826, 0), (8719429331, 0), (103484, 0), (0, 5290),
    (0, 13)], [(0, 6298340023), (0, 4196033), (885, 0), (10, 0)], [(3067047, 0), (1773, 0)], [(0, 1396), (0, 1)]], 3,
    4⟩, 17592186044416, 179545,
    12961688388028630306286076720195624825741868076224264819143983020554488018667044582006302901682982742585872402806759027916937626,
    lc0⟩))
theorem c77 : checkR job con0 true ⟨7, 9, 7, 9, 13, 17⟩ 1 28336 t77 2229 21 5120 62243 251 64000 = true := by decide +kernel

def t78 : CTree :=
  .sy (.sy (.sx (.sy (.out ⟨4290, 16, 18700, 30025, 16, 44966, ⟨[[(23334229806219264, 0), (0, 2174036903839917),
    (1995721958, 0)], [(25902704783503869, 0), (0, 552461592853), (163578, 0)], [(0, 5152847253790), (0, 393021),
    (26, 0)]], 2, 2⟩, ⟨[[(0, 27226658399322112), (0, 4360255376159366), (8787524413, 0)]], 2, 2⟩, 72057594037927936,
    6512511262126, 280196304868, ⟨[], 0, 0⟩, 0, 0, 0, lc0⟩ 1 1 21212470437) (.out ⟨4300, 16, 18809, 30055, 16, 45057,
    ⟨[[(7532276925005824, 0), (0, 2184715499617381), (1963786451, 0)], [(25774775445633560, 0), (0, 555529838436),
    (138127, 0)], [(0, 5183074437362), (0, 369321), (25, 0)]], 2, 2⟩, ⟨[[(0, 1625623986962432), (0,
    4360252317216481), (8778636767, 0)]], 2, 2⟩, 72057594037927936, 6575398953851, 279629835375, ⟨[], 0, 0⟩, 0, 0, 0,
    lc0⟩ 1 1 15989893700)) (.sy (.sy (.out ⟨5783, 16, 25095, 60049, 16, 89909, ⟨[[(0, 17904086687547392), (0,
    1474663258620567), (675547995, 0)], [(34277676067681536, 0), (0, 370736063919), (57924, 0)], [(0, 6805445619331),
    (0, 21094), (12, 0)]], 2, 2⟩, ⟨[[(5399243536203776, 0), (0, 4361346187546374), (4395973269, 0)]], 2, 2⟩,
    72057594037927936, 8101213670513, 70084609334, ⟨[], 0, 0⟩, 0, 0, 0, lc0⟩ 1 1 13988220599) (.out ⟨5794, 16, 25189,
    60079, 16, 90000, ⟨[[(7406388107804672, 0), (0, 1479509915291440), (670685977, 0)], [(34219279881869385, 0), (0,
    372068578653), (53755, 0)], [(0, 6830944868776), (0, 9301), (12, 0)]], 2, 2⟩, ⟨[[(32665746332450816, 0), (0,
    4361345783101378), (4393749687, 0)]], 2, 2⟩, 72057594037927936, 8141743265860, 70013484267, ⟨[], 0, 0⟩, 0, 0, 0,
    lc0⟩ 1 1 11586128627)) (.leaf ⟨5686, 16, 19242, 2594, 16, 11817, ⟨[[(16788309863890944, 0), (0,
    2258879423630877), (2014980470, 0), (0, 30706)], [(25926275758833094, 0), (0, 568333975684), (143866, 0), (0,
    18)], [(0, 5218192414667), (12517, 0), (35, 0)], [(664561658, 0), (3098, 0)]], 3, 4⟩, ⟨[[(24044999603945472, 0),
    (0, 1630322065391387), (0, 545025964), (0, 40812), (0, 1)], [(0, 33622368973133239), (0, 95492841695), (0,
    1375740), (0, 30)], [(2276842046108, 0), (4284265, 0), (0, 140)], [(0, 141913109), (1140, 0)]], 3, 4⟩,
    72057594037927936, 10116646046, 4533050201, ⟨[[(13931278478673, 0), (4172713802, 0), (18838, 0), (0, 591), (0,
    1)], [(0, 3034662319), (0, 998009), (131, 0), (1, 0)], [(734879, 0), (210, 0)], [(0, 167)]], 3, 4⟩,
    17592186044416, 63062,
    11427521344946743567092127642308473194502577716462250705105393133707561179746379391420098566320327815500069155583783040082517582,
    lc0⟩))) (.sx (.sy (.sy (.out ⟨5764, 16, 25281, 60171, 16, 90274, ⟨[[(28266648477368320, 0), (0,
    1467242417099515), (648670620, 0)], [(34362532366980980, 0), (0, 373276413788), (39625, 0)], [(0, 6966703745353),
    (0, 235654), (8, 0)]], 2, 2⟩, ⟨[[(5114856603123712, 0), (0, 4361379542246208), (4387127594, 0)]], 2, 2⟩,
    72057594037927936, 8291218513534, 69802153292, ⟨[], 0, 0⟩, 0, 0, 0, lc0⟩ 1 1 12424351992) (.out ⟨5776, 16, 25376,
    60201, 16, 90365, ⟨[[(0, 14729236824784896), (0, 1472106065524937), (643499533, 0)], [(34303579340954990, 0), (0,
    374641474077), (35165, 0)], [(0, 6992999658779), (0, 228411), (8, 0)]], 2, 2⟩, ⟨[[(23525376208666624, 0), (0,
    4361370218013587), (4384903998, 0)]], 2, 2⟩, 72057594037927936, 8333094884178, 69731463606, ⟨[], 0, 0⟩, 0, 0, 0,
    lc0⟩ 1 1 9742550387)) (.leaf ⟨5689, 16, 19410, 2579, 16, 11761, ⟨[[(8707136698122240, 0), (0, 2250546741821300),
    (1933410699, 0), (0, 31642)], [(26022902655321027, 0), (0, 573050541046), (86138, 0), (0, 19)], [(0,
    5349045359052), (0, 331388), (23, 0)], [(681055363, 0), (3276, 0)]], 3, 4⟩, ⟨[[(2859844497145856, 0), (0,
    1619692905272441), (0, 607721568), (0, 42001), (0, 1)], [(0, 33751307101787270), (0, 98207607172), (0, 1447367),
    (0, 31)], [(2287995677279, 0), (3821236, 0), (0, 153)], [(0, 142595263), (1224, 0)]], 3, 4⟩, 72057594037927936,
    10312250523, 4577299901, ⟨[[(14061712941721, 0), (4239321871, 0), (17954, 0), (0, 621), (0, 1)], [(0,
    3074098974), (0, 1014404), (127, 0), (1, 0)], [(744820, 0), (214, 0)], [(0, 169)]], 3, 4⟩, 17592186044416, 58574,
    10290834511929520046505027659684466833382663418748958958000032981988856654862337206480597019778045797135257905173460277199087915,
    lc0⟩)) (.leaf ⟨3772, 16, 12817, 1883, 16, 8633, ⟨[[(0, 10197949068279808), (0, 3005284369304126), (5180597658,
    0), (0, 169433), (0, 4)], [(16984352769771956, 0), (0, 756881938903), (271830, 0), (0, 100)], [(0,
    3475792536142), (85556, 0), (89, 0)], [(444243570, 0), (4279, 0)]], 3, 4⟩, ⟨[[(0, 10038654513479680), (0,
    2383390955692694), (0, 1868667580), (0, 250218), (0, 8)], [(0, 24616190316274018), (0, 142627632911), (0,
    4218801), (0, 179)], [(1665662566651, 0), (5946667, 0), (0, 422)], [(0, 103021304), (1811, 0)]], 3, 4⟩,
    72057594037927936, 6576616432, 3288632032, ⟨[[(13932611762639, 0), (5742078731, 0), (83732, 0), (0, 1439), (0,
    2)], [(0, 4582333345), (0, 2078934), (288, 0), (2, 0)], [(1674734, 0), (657, 0)], [(0, 573)]], 3, 4⟩,
    17592186044416, 70243,
    7272335565854479028504947023617799874268946910046763872815463114826558287307914083296934406324796071444932563395229258497299280,
    lc0⟩))) (.sy (.leaf ⟨2852, 16, 9757, 1274, 16, 5870, ⟨[[(0, 20184060649209856), (0, 2271829338042840),
    (3743086756, 0), (0, 133421), (0, 3)], [(25503590616456539, 0), (0, 1152063495332), (173414, 0), (0, 160)], [(0,
    10669534117697), (0, 336081), (214, 0)], [(2733851481, 0), (27332, 0), (1, 0)]], 3, 4⟩, ⟨[[(0,
    10534062714994688), (0, 1619890786204852), (0, 1471055137), (0, 178546), (0, 6)], [(0, 33669837973648640), (0,
    200217077579), (0, 6086128), (0, 253)], [(4555657918239, 0), (14658155, 0), (0, 1226)], [(0, 560315278), (10775,
    0), (1, 0)]], 3, 4⟩, 72057594037927936, 70884390342, 27004142251, ⟨[[(13996740684011, 0), (8520971522, 0),
    (253035, 0), (0, 4477), (0, 11)], [(0, 6107443802), (0, 4091328), (646, 0), (9, 0)], [(2956143, 0), (1707, 0)],
    [(0, 1338), (0, 1)]], 3, 4⟩, 17592186044416, 199554,
    10923103875426382284425656872436083869631788977939637142798109106764407296789941709199243124581815926268391721791656715221118170,
    lc0⟩) (.leaf ⟨2869, 16, 9872, 1260, 16, 5856, ⟨[[(23840359777992704, 0), (0, 2294907343341617), (3579136168, 0),
    (0, 141369), (0, 3)], [(25219057545408302, 0), (0, 1165590073965), (0, 73530), (0, 169)], [(0, 10795407537078),
    (0, 133107), (196, 0)], [(2780296670, 0), (29022, 0), (1, 0)]], 3, 4⟩, ⟨[[(0, 32288123254816768), (0,
    1617638270583540), (0, 1744376208), (0, 189609), (0, 6)], [(0, 33691366798703781), (0, 206029476520), (0,
    6460956), (0, 264)], [(4551821293485, 0), (13371469, 0), (0, 1271)], [(0, 553298033), (11893, 0), (1, 0)]], 3,
    4⟩, 72057594037927936, 72293479232, 26292398586, ⟨[[(14003501947488, 0), (8602192126, 0), (388750, 0), (0, 4179),
    (0, 10)], [(0, 6088223565), (0, 4120305), (366, 0), (8, 0)], [(2934342, 0), (1697, 0)], [(0, 1322), (0, 1)]], 3,
    4⟩, 17592186044416, 213455,
    12858863111409460081622649948377395299361445221699552285038454876371981630996839419005244030444052138869505756956220546765153668,
    lc0⟩))
theorem c78 : checkR job con0 true ⟨7, 9, 7, 9, 13, 17⟩ 1 28336 t78 2271 21 5120 62243 251 64000 = true := by decide +kernel

def t79 : CTree :=
  .sy (.sx (.sy (.leaf ⟨2848, 16, 9587, 1289, 16, 5927, ⟨[[(14699287039639552, 0), (0, 2287592908827400),
    (4081624263, 0), (0, 125500), (0, 3)], [(25329474380157035, 0), (0, 1132730486069), (649156, 0), (0, 144)], [(0,
    10151551953073), (2284578, 0), (396, 0)], [(2602030639, 0), (24385, 0), (1, 0)]], 3, 4⟩, ⟨[[(29223486986174464,
    0), (0, 1641133948906872), (0, 1204462877), (0, 168571), (0, 5)], [(0, 33417726521653022), (0, 189081596401), (0,
    5498548), (0, 236)], [(4512545762584, 0), (18334814, 0), (0, 1018)], [(0, 555913065), (9358, 0), (1, 0)]], 3, 4⟩,
    72057594037927936, 68145455185, 24686324191, ⟨[[(13740696296281, 0), (8255567340, 0), (246330, 0), (0, 4072), (0,
    9)], [(0, 5954969194), (0, 3964635), (723, 0), (8, 0)], [(2880384, 0), (1655, 0)], [(0, 1305), (0, 1)]], 3, 4⟩,
    17592186044416, 158021,
    8828659974797186874906826841079205699561720068312439518375137771381358764978285491408919472021282605493345205553255232019378790,
    lc0⟩) (.leaf ⟨2866, 16, 9700, 1275, 16, 5914, ⟨[[(0, 24160632754143232), (0, 2310507549360441), (3933982702, 0),
    (0, 133025), (0, 3)], [(25052841523102324, 0), (0, 1145534193692), (432233, 0), (0, 153)], [(0, 10269945851457),
    (2708100, 0), (390, 0)], [(2645395904, 0), (25919, 0), (1, 0)]], 3, 4⟩, ⟨[[(11875485822779392, 0), (0,
    1638870879822119), (0, 1463310301), (0, 179153), (0, 6)], [(0, 33440553229291416), (0, 194356299440), (0,
    5849738), (0, 247)], [(4511572852103, 0), (17255690, 0), (0, 1054)], [(0, 549741653), (10400, 0), (1, 0)]], 3,
    4⟩, 72057594037927936, 69090221512, 25355495072, ⟨[[(13739922129613, 0), (8328440983, 0), (370776, 0), (0, 3806),
    (0, 9)], [(0, 5929608458), (0, 3991023), (455, 0), (7, 0)], [(2854864, 0), (1648, 0)], [(0, 1286), (0, 1)]], 3,
    4⟩, 17592186044416, 158654,
    11120617096162869965473318946327158807167159629256473591149444366297337108909295242129655949577829194978472556091234325404674394,
    lc0⟩)) (.leaf ⟨1879, 16, 6310, 924, 16, 4333, ⟨[[(0, 11288796522692608), (0, 3071244580456414), (10555808188, 0),
    (0, 709017), (0, 33)], [(15932120576180596, 0), (0, 1490246489071), (1523813, 0), (0, 778)], [(0, 6467265163571),
    (7409022, 0), (1441, 0)], [(1678984208, 0), (32835, 0), (3, 0)]], 3, 4⟩, ⟨[[(19803288209555456, 0), (0,
    2412206558755830), (0, 4601819394), (0, 1077197), (0, 67)], [(0, 24190083174282590), (0, 278295661632), (0,
    16843677), (0, 1425)], [(3252151121909, 0), (27926841, 0), (0, 2639)], [(0, 390938977), (15265, 0), (3, 0)]], 3,
    4⟩, 72057594037927936, 48697816388, 26467324508, ⟨[[(13493974350782, 0), (11228794775, 0), (974472, 0), (0,
    8122), (0, 27)], [(0, 8837343122), (0, 8239305), (558, 0), (23, 0)], [(6492807, 0), (5151, 0), (2, 0)], [(0,
    4467), (0, 3)]], 3, 4⟩, 17592186044416, 538944,
    13292560226343302313300547214085300141030854781388998529915237324763371985884882113470674975723348254086934302970225929343858243,
    lc0⟩)) (.sx (.sy (.leaf ⟨2883, 16, 9814, 1261, 16, 5901, ⟨[[(5163584677445632, 0), (0, 2333769171041838),
    (3772757141, 0), (0, 140968), (0, 3)], [(24765550856335470, 0), (0, 1158676574589), (199529, 0), (0, 162)], [(0,
    10389170249215), (3130547, 0), (384, 0)], [(2689981799, 0), (27556, 0), (1, 0)]], 3, 4⟩, ⟨[[(0,
    2593712842899456), (0, 1636872293526051), (0, 1737882053), (0, 190244), (0, 6)], [(0, 33465899871739416), (0,
    199978130524), (0, 6215841), (0, 257)], [(4510030779731, 0), (16142847, 0), (0, 1090)], [(0, 543046484), (11491,
    0), (1, 0)]], 3, 4⟩, 72057594037927936, 70620620026, 24609522534, ⟨[[(13744323903887, 0), (8403586161, 0),
    (490804, 0), (0, 3545), (0, 9)], [(0, 5909910289), (0, 4014949), (210, 0), (6, 0)], [(2833600, 0), (1636, 0)],
    [(0, 1271), (0, 1)]], 3, 4⟩, 17592186044416, 200862,
    12289953857750521255755847645292188144733765343931292027351280538457575306860186555346775048161211785376981202284717848916192779,
    lc0⟩) (.leaf ⟨2901, 16, 9931, 1247, 16, 5887, ⟨[[(260765190193152, 0), (0, 2357868287315312), (3597873185, 0),
    (0, 149379), (0, 3)], [(24472239405167592, 0), (0, 1172412744888), (0, 49872), (0, 171)], [(0, 10511340059170),
    (3552326, 0), (378, 0)], [(2736402448, 0), (29305, 0), (1, 0)]], 3, 4⟩, ⟨[[(0, 29577382662864896), (0,
    1634876022738904), (0, 2028573111), (0, 201824), (0, 6)], [(0, 33488249096709406), (0, 205926483120), (0,
    6596214), (0, 268)], [(4507137834391, 0), (14992273, 0), (0, 1128)], [(0, 535712581), (12631, 0), (1, 0)]], 3,
    4⟩, 72057594037927936, 72017056137, 24955814775, ⟨[[(13747292070963, 0), (8477035648, 0), (604793, 0), (0, 3290),
    (0, 8)], [(0, 5887501388), (0, 4032009), (0, 7), (6, 0)], [(2810391, 0), (1619, 0), (1, 0)], [(0, 1254), (0,
    1)]], 3, 4⟩, 17592186044416, 202053,
    12513558408552471312034755936071180151782211875307467819308980475456849885782682348106524853264974985879904402212142285440536375,
    lc0⟩)) (.leaf ⟨1888, 16, 6415, 904, 16, 4315, ⟨[[(28223320295096320, 0), (0, 3112138670742672), (9594025830, 0),
    (0, 790698), (0, 36)], [(15436970787480643, 0), (0, 1514105465520), (302753, 0), (0, 866)], [(0, 6570732452646),
    (8998778, 0), (1457, 0)], [(1724563271, 0), (36963, 0), (4, 0)]], 3, 4⟩, ⟨[[(0, 22908663885234176), (0,
    2407632274486837), (0, 6301853352), (0, 1212620), (0, 73)], [(0, 24233128239624722), (0, 295085646509), (0,
    19008460), (0, 1550)], [(3251924400432, 0), (25079135, 0), (0, 2816)], [(0, 380870497), (18496, 0), (3, 0)]], 3,
    4⟩, 72057594037927936, 50180568101, 26497215237, ⟨[[(13505784828785, 0), (11421593541, 0), (1351708, 0), (0,
    6998), (0, 25)], [(0, 8843677052), (0, 8363517), (0, 539), (18, 0)], [(6490883, 0), (5119, 0), (3, 0)], [(0,
    4456), (0, 3)]], 3, 4⟩, 17592186044416, 506367,
    11933139068602778543847461462579392765123209271186196737589197177182630551545227718244159402028790150019034940674975891759433904,
    lc0⟩))
theorem c79 : checkR job con0 true ⟨7, 9, 7, 9, 13, 17⟩ 1 28336 t79 1167 21 2560 62243 251 64000 = true := by decide +kernel

def t80 : CTree :=
  .sx (.sy (.sx (.sy (.leaf ⟨2854, 16, 9925, 1258, 16, 5811, ⟨[[(0, 2147567233957888), (0, 2254500393628001),
    (3393620258, 0), (0, 141364), (0, 3)], [(25692807792924852, 0), (0, 1171895311532), (0, 342924), (0, 176)], [(0,
    11211342658203), (0, 3792141), (0, 7)], [(2871858614, 0), (30407, 0), (1, 0)]], 3, 4⟩, ⟨[[(24674733517914112, 0),
    (0, 1598205045611303), (0, 1739442911), (0, 188680), (0, 6)], [(0, 33919607121115435), (0, 212023088000), (0,
    6698456), (0, 271)], [(4592941264132, 0), (10388992, 0), (0, 1462)], [(0, 564676791), (12213, 0), (1, 0)]], 3,
    4⟩, 72057594037927936, 74163140977, 28117038605, ⟨[[(14257927762564, 0), (8801034063, 0), (275837, 0), (0, 4878),
    (0, 12)], [(0, 6268415988), (0, 4228093), (530, 0), (9, 0)], [(3038374, 0), (1761, 0)], [(0, 1376), (0, 1)]], 3,
    4⟩, 17592186044416, 190012,
    12754240922821351167557527915381846393636940401626901408396501350635811233538633924236285391223375977471435215033273283233612346,
    lc0⟩) (.sx (.leaf ⟨3803, 16, 13314, 1839, 16, 8533, ⟨[[(0, 35636176024240128), (0, 3003386528606567),
    (4268835992, 0), (0, 195908), (0, 4)], [(16996875329215842, 0), (0, 786286872643), (0, 411467), (0, 124)], [(0,
    3791120137302), (0, 1615724), (0, 29)], [(486792985, 0), (5332, 0)]], 3, 4⟩, ⟨[[(0, 20895808087359488), (0,
    2346240328112993), (0, 2875251153), (0, 290404), (0, 9)], [(0, 25054585571855296), (0, 160893803903), (0,
    5200360), (0, 207)], [(1694360098422, 0), (3109820, 0), (0, 573)], [(0, 103526235), (2428, 0)]], 3, 4⟩,
    72057594037927936, 8547975384, 3576062551, ⟨[[(14328289928503, 0), (6046404594, 0), (161798, 0), (0, 1506), (0,
    3)], [(0, 4742108026), (0, 2183336), (125, 0), (2, 0)], [(1727200, 0), (679, 0)], [(0, 588)]], 3, 4⟩,
    17592186044416, 87088,
    11328127770420050565082617529164083375131298123932056123899819565249912103870336478366575138245098765344024692483141545912895435,
    lc0⟩) (.leaf ⟨3807, 16, 13294, 1826, 16, 8543, ⟨[[(0, 29307626745757696), (0, 3031851798499676), (4245135875, 0),
    (0, 200807), (0, 5)], [(16655930317707572, 0), (0, 785213023209), (0, 411923), (0, 124)], [(0, 3724509657599),
    (0, 940763), (3, 0)], [(480860602, 0), (5350, 0)]], 3, 4⟩, ⟨[[(20583153729241088, 0), (0, 2355749721268119), (0,
    3098286851), (0, 299474), (0, 9)], [(0, 24941999277389836), (0, 160807824821), (0, 5253431), (0, 208)],
    [(1683419525434, 0), (3424713, 0), (0, 545)], [(0, 101541122), (2509, 0)]], 3, 4⟩, 72057594037927936, 8287685976,
    3904366697, ⟨[[(14191160380584, 0), (6012261908, 0), (226564, 0), (0, 1332), (0, 2)], [(0, 4682832408), (0,
    2173517), (46, 0), (2, 0)], [(1705123, 0), (669, 0)], [(0, 580)]], 3, 4⟩, 17592186044416, 98196,
    12493019978415877789748264641335671584404655647435803120403675239745469214334484249587887937665214316216254186855320545114690547,
    lc0⟩))) (.sy (.leaf ⟨2887, 16, 9990, 1245, 16, 5842, ⟨[[(33251250828378112, 0), (0, 2318811792846195),
    (3401443348, 0), (0, 149782), (0, 3)], [(24928340021319997, 0), (0, 1179728431342), (0, 338060), (0, 179)], [(0,
    10924464386027), (54084, 0), (178, 0)], [(2828636142, 0), (30829, 0), (1, 0)]], 3, 4⟩, ⟨[[(21018374558515200, 0),
    (0, 1615664132503312), (0, 2034062225), (0, 201188), (0, 6)], [(0, 33715658041223997), (0, 212210431841), (0,
    6851283), (0, 275)], [(4547312061001, 0), (12042053, 0), (0, 1317)], [(0, 545720397), (13065, 0), (1, 0)]], 3,
    4⟩, 72057594037927936, 73798502060, 26764660607, ⟨[[(13998185242623, 0), (8678727754, 0), (531588, 0), (0, 3836),
    (0, 10)], [(0, 6061091102), (0, 4141205), (92, 0), (7, 0)], [(2908445, 0), (1678, 0), (1, 0)], [(0, 1304), (0,
    1)]], 3, 4⟩, 17592186044416, 195831,
    13676272366423863993559147963812887621915357565981472691485694973671004651004287768978198381983405515564224803654653772371651846,
    lc0⟩) (.leaf ⟨2906, 16, 10111, 1231, 16, 5827, ⟨[[(6951322964525056, 0), (0, 2343557464848915), (3209038042, 0),
    (0, 158683), (0, 4)], [(24630768707023226, 0), (0, 1194500050156), (0, 621330), (0, 190)], [(0, 11056711755297),
    (224386, 0), (158, 0)], [(2878948156, 0), (32760, 0), (2, 0)]], 3, 4⟩, ⟨[[(0, 10092240728375296), (0,
    1613707531028413), (0, 2340455943), (0, 213261), (0, 6)], [(0, 33737102599773739), (0, 218737230615), (0,
    7256346), (0, 287)], [(4541330503853, 0), (10666197, 0), (0, 1366)], [(0, 537464839), (14287, 0), (1, 0)]], 3,
    4⟩, 72057594037927936, 74519885289, 28302792715, ⟨[[(13999892049422, 0), (8754135930, 0), (654681, 0), (0, 3542),
    (0, 9)], [(0, 6035311078), (0, 4154419), (0, 127), (6, 0)], [(2882343, 0), (1656, 0), (1, 0)], [(0, 1286), (0,
    1)]], 3, 4⟩, 17592186044416, 201992,
    13571814107946922951500309838487023875005173322239125049179763054579098926090752627991455344619594542060159585131387238582996296,
    lc0⟩))) (.sx (.sy (.sx (.leaf ⟨3813, 16, 13426, 1818, 16, 8513, ⟨[[(29401377341079552, 0), (0, 3024481293151788),
    (4000349992, 0), (0, 206750), (0, 5)], [(16741699465193512, 0), (0, 793413460093), (0, 606806), (0, 130)], [(0,
    3823837971631), (0, 1664214), (0, 41)], [(493652015, 0), (5637, 0)]], 3, 4⟩, ⟨[[(5958883394928640, 0), (0,
    2343844695720565), (0, 3318523803), (0, 308047), (0, 9)], [(0, 25077774820119034), (0, 165883993114), (0,
    5505922), (0, 216)], [(1691800228959, 0), (2516824, 0), (0, 595)], [(0, 102009209), (2657, 0)]], 3, 4⟩,
    72057594037927936, 8066775468, 4891362700, ⟨[[(14330634034357, 0), (6102071380, 0), (233535, 0), (0, 1385), (0,
    3)], [(0, 4741354321), (0, 2202276), (25, 0), (2, 0)], [(1725528, 0), (676, 0)], [(0, 587)]], 3, 4⟩,
    17592186044416, 114372,
    13077961107992455390035420198887184795211802489233937720870683305996178756784172823044254430113612464869984794470167248956799457,
    lc0⟩) (.leaf ⟨3817, 16, 13406, 1806, 16, 8523, ⟨[[(27243502062010368, 0), (0, 3053252122756263), (3968891136, 0),
    (0, 211919), (0, 5)], [(16398635597160616, 0), (0, 792341295477), (0, 607899), (0, 131)], [(0, 3756364379287),
    (0, 950493), (0, 7)], [(487686187, 0), (5660, 0)]], 3, 4⟩, ⟨[[(0, 26983334046203904), (0, 2353568617498814), (0,
    3554975618), (0, 317499), (0, 10)], [(0, 24965491537653940), (0, 165852967097), (0, 5561166), (0, 217)],
    [(1681054888137, 0), (2860151, 0), (0, 565)], [(0, 99987438), (2741, 0)]], 3, 4⟩, 72057594037927936, 7521325634,
    5132287852, ⟨[[(14199026705760, 0), (6066265988, 0), (288199, 0), (0, 1230), (0, 2)], [(0, 4684129736), (0,
    2189779), (0, 37), (1, 0)], [(1704228, 0), (665, 0)], [(0, 579)]], 3, 4⟩, 17592186044416, 104640,
    13268827168475229754009900815469668163585069771668057975801016467893823890395493884207899091069751302470355124039136996796030427,
    lc0⟩)) (.sx (.leaf ⟨3824, 16, 13539, 1798, 16, 8493, ⟨[[(19418921732112384, 0), (0, 3046046728820432),
    (3712816774, 0), (0, 218137), (0, 5)], [(16480789254952451, 0), (0, 800806432227), (0, 814310), (0, 137)], [(0,
    3856875148460), (0, 1725523), (0, 53)], [(500729276, 0), (5961, 0)]], 3, 4⟩, ⟨[[(0, 35389052213886976), (0,
    2341899271006815), (0, 3787870671), (0, 326482), (0, 10)], [(0, 25103348270916145), (0, 171174112665), (0,
    5823768), (0, 224)], [(1688934412454, 0), (1902569, 0), (0, 618)], [(0, 100377341), (2898, 0)]], 3, 4⟩,
    72057594037927936, 7255989268, 4489137046, ⟨[[(14333692580091, 0), (6154521226, 0), (297925, 0), (0, 1273), (0,
    2)], [(0, 4739258049), (0, 2216669), (0, 59), (1, 0)], [(1722945, 0), (670, 0)], [(0, 585)]], 3, 4⟩,
    17592186044416, 117077,
    13716379783718594258110888268265420339193339387993529600662238884934641722029170496222790788857777443994644324529767665824699116,
    lc0⟩) (.leaf ⟨3828, 16, 13519, 1785, 16, 8501, ⟨[[(8530248892678144, 0), (0, 3075133849391890), (3673108788, 0),
    (0, 223593), (0, 5)], [(16135581322701787, 0), (0, 799736633699), (0, 816074), (0, 138)], [(0, 3788510779287),
    (0, 970623), (0, 17)], [(494732345, 0), (5989, 0)]], 3, 4⟩, ⟨[[(0, 28993840309288960), (0, 2351297737138973), (0,
    4037340223), (0, 336248), (0, 10)], [(0, 24985518125802432), (0, 171159886005), (0, 5879898), (0, 226)],
    [(1678003727342, 0), (2275114, 0), (0, 587)], [(0, 98294616), (2984, 0)]], 3, 4⟩, 72057594037927936, 6774414430,
    3516522749, ⟨[[(14198091144533, 0), (6117885686, 0), (349176, 0), (0, 1122), (0, 2)], [(0, 4680702920), (0,
    2202460), (0, 113), (1, 0)], [(1701397, 0), (659, 0)], [(0, 578)]], 3, 4⟩, 17592186044416, 83222,
    13141061744505062240359726872829855668014309920571115779639829525524220374325603330612038595908369067409304884592249620168882738,
    lc0⟩))) (.sx (.leaf ⟨2251, 16, 7909, 1163, 16, 5561, ⟨[[(24746747056586752, 0), (0, 3639571889763961),
    (8914955338, 0), (0, 1049653), (0, 47)], [(9372537950370702, 0), (0, 935346743064), (0, 1668338), (0, 633)], [(0,
    2180078249418), (0, 262740), (55, 0)], [(285512672, 0), (6878, 0), (1, 0)]], 3, 4⟩, ⟨[[(20269843992641536, 0),
    (0, 3082911772327806), (0, 10541811753), (0, 1756628), (0, 104)], [(0, 16224790188574339), (0, 219822972013), (0,
    15068140), (0, 1164)], [(1089206904293, 0), (3835680, 0), (0, 1423)], [(0, 63411963), (3839, 0), (1, 0)]], 3, 4⟩,
    72057594037927936, 9052223003, 10577535865, ⟨[[(14063274249704, 0), (9278611768, 0), (864518, 0), (0, 3714), (0,
    11)], [(0, 7860938018), (0, 5683421), (0, 515), (7, 0)], [(4859207, 0), (2884, 0), (2, 0)], [(0, 2806), (0, 1)]],
    3, 4⟩, 17592186044416, 249501,
    13299454283657156727055329124796850903059564920373982467618251958908559769605909372924697391908957378855262275867773991808478164,
    lc0⟩) (.leaf ⟨2244, 16, 7866, 1153, 16, 5558, ⟨[[(34852939875221504, 0), (0, 3658855037515846), (8796943135, 0),
    (0, 1070450), (0, 48)], [(9140947384347828, 0), (0, 930247101255), (0, 1651121), (0, 632)], [(0, 2132636147354),
    (602644, 0), (139, 0)], [(280954694, 0), (6873, 0), (1, 0)]], 3, 4⟩, ⟨[[(16467628042387456, 0), (0,
    3090469165431413), (0, 11171105624), (0, 1804665), (0, 106)], [(0, 16124926397188800), (0, 219361886727), (0,
    15176013), (0, 1169)], [(1080717620711, 0), (4323051, 0), (0, 1339)], [(0, 62052812), (3931, 0), (1, 0)]], 3, 4⟩,
    72057594037927936, 8530808174, 10672949612, ⟨[[(13935352400828, 0), (9236640371, 0), (960814, 0), (0, 3295), (0,
    10)], [(0, 7799424246), (0, 5675994), (0, 681), (6, 0)], [(4840909, 0), (2867, 0), (2, 0)], [(0, 2807), (0, 1)]],
    3, 4⟩, 17592186044416, 246082,
    13135513227129615408812632934110544975632203166873359814149699855542637193889927755023697285800421477756638434055945258623004691,
    lc0⟩)))) (.sx (.sy (.leaf ⟨1896, 16, 6546, 895, 16, 4286, ⟨[[(0, 2308184922292224), (0, 3101568655791454),
    (8565079151, 0), (0, 843761), (0, 38)], [(15548849432629650, 0), (0, 1546078584544), (0, 1185210), (0, 965)],
    [(0, 6926627839851), (5416331, 0), (952, 0)], [(1818797884, 0), (41637, 0), (4, 0)]], 3, 4⟩,
    ⟨[[(8816321419075584, 0), (0, 2385489947433437), (0, 7297579471), (0, 1287114), (0, 77)], [(0,
    24496647373188306), (0, 314990984758), (0, 21032367), (0, 1667)], [(3289142994105, 0), (19285945, 0), (0, 3474)],
    [(0, 382593881), (21104, 0), (4, 0)]], 3, 4⟩, 72057594037927936, 52746753242, 28899673861, ⟨[[(13742167399844,
    0), (11747375449, 0), (1455218, 0), (0, 7370), (0, 27)], [(0, 9034660272), (0, 8556804), (0, 876), (17, 0)],
    [(6618476, 0), (5175, 0), (3, 0)], [(0, 4530), (0, 3)]], 3, 4⟩, 17592186044416, 548845,
    12934257468876298264719205857493237583185467123795716105558269152333809059853494450715087248875393527236809420798726028058319515,
    lc0⟩) (.leaf ⟨1906, 16, 6656, 874, 16, 4264, ⟨[[(0, 8186763847139328), (0, 3145612815816518), (7356331663, 0),
    (0, 939537), (0, 42)], [(15020530392766403, 0), (0, 1574033427188), (0, 2750830), (0, 1073)], [(0,
    7040020218177), (6449891, 0), (909, 0)], [(1871715414, 0), (46802, 0), (5, 0)]], 3, 4⟩, ⟨[[(0, 2419623967334400),
    (0, 2381542057368226), (0, 9307722240), (0, 1441223), (0, 84)], [(0, 24533707549932157), (0, 335672781469), (0,
    23532395), (0, 1807)], [(3280998690646, 0), (15584021, 0), (0, 3725)], [(0, 369122958), (24913, 0), (4, 0)]], 3,
    4⟩, 72057594037927936, 53497624890, 30091791897, ⟨[[(13743150875289, 0), (11940567310, 0), (1832498, 0), (0,
    6072), (0, 25)], [(0, 9029429574), (0, 8636451), (0, 1739), (12, 0)], [(6607917, 0), (5082, 0), (4, 0)], [(0,
    4519), (0, 3)]], 3, 4⟩, 17592186044416, 524438,
    13165920162965784683856513591523172098644843333515503056216770999153970254614536601744996602667008854048151120190029829938721896,
    lc0⟩)) (.sy (.leaf ⟨1898, 16, 6522, 883, 16, 4295, ⟨[[(0, 8700451218833408), (0, 3154881813233904), (8486062324,
    0), (0, 881086), (0, 40)], [(14921659013513338, 0), (0, 1539736967230), (0, 1079080), (0, 963)], [(0,
    6675364447385), (10633577, 0), (1477, 0)], [(1773191591, 0), (41628, 0), (4, 0)]], 3, 4⟩, ⟨[[(0,
    16284368419127296), (0, 2403720868351137), (0, 8203979971), (0, 1360265), (0, 80)], [(0, 24273221816968664), (0,
    313915471206), (0, 21349049), (0, 1684)], [(3248660045376, 0), (22047994, 0), (0, 3007)], [(0, 368970020),
    (22028, 0), (4, 0)]], 3, 4⟩, 72057594037927936, 50250853540, 27077176629, ⟨[[(13500178087171, 0), (11602569810,
    0), (1711181, 0), (0, 5818), (0, 22)], [(0, 8832169024), (0, 8446165), (0, 1432), (13, 0)], [(6475144, 0), (5036,
    0), (3, 0)], [(0, 4438), (0, 3)]], 3, 4⟩, 17592186044416, 535218,
    12270089344084028874716828003014240198006042857374363337785405450071891476140395674547394895089658601254945179782847573085160890,
    lc0⟩) (.leaf ⟨1907, 16, 6630, 861, 16, 4272, ⟨[[(0, 538403680141312), (0, 3199161637120836), (7214458053, 0), (0,
    980802), (0, 44)], [(14382601248867950, 0), (0, 1567097949325), (0, 2639090), (0, 1070)], [(0, 6780099295202),
    (12316933, 0), (1502, 0)], [(1824925491, 0), (46889, 0), (5, 0)]], 3, 4⟩, ⟨[[(25905256177893376, 0), (0,
    2400105540100570), (0, 10321679315), (0, 1520262), (0, 87)], [(0, 24305546579126872), (0, 334857277309), (0,
    23868282), (0, 1824)], [(3241500195440, 0), (18817508, 0), (0, 3213)], [(0, 355016038), (25876, 0), (4, 0)]], 3,
    4⟩, 72057594037927936, 51741985615, 28641506435, ⟨[[(13494058292907, 0), (11788919480, 0), (2043151, 0), (0,
    4662), (0, 20)], [(0, 8828276475), (0, 8512531), (0, 2101), (8, 0)], [(6472160, 0), (4943, 0), (3, 0)], [(0,
    4435), (0, 2)]], 3, 4⟩, 17592186044416, 483175,
    10310564139460546014164583000191611857597753918532552257617422445863718267817896743354507315111564592190628533490380552172129148,
    lc0⟩)))
theorem c80 : checkR job con0 true ⟨7, 9, 7, 9, 13, 17⟩ 1 28336 t80 573 21 1280 62745 251 64000 = true := by decide +kernel

def t81 : CTree :=
  .sy (.sx (.sy (.leaf ⟨1450, 16, 4835, 624, 16, 2991, ⟨[[(4134847934382080, 0), (0, 2425233321035612), (8166910145,
    0), (0, 580799), (0, 27)], [(23197297384237291, 0), (0, 2281756385044), (2674875, 0), (0, 1189)], [(0,
    18865474697522), (41671059, 0), (6377, 0)], [(9953730941, 0), (199883, 0), (21, 0)]], 3, 4⟩, ⟨[[(0,
    33460974150680576), (0, 1677130569581919), (0, 3915746019), (0, 805826), (0, 49)], [(0, 32836650982814220), (0,
    379091317670), (0, 23661222), (0, 1984)], [(8780680899971, 0), (85348744, 0), (0, 5642)], [(0, 2053224371),
    (89841, 0), (17, 0)]], 3, 4⟩, 72057594037927936, 527082240031, 173086396335, ⟨[[(13154954746734, 0),
    (16039446403, 0), (2926742, 0), (0, 18178), (0, 90)], [(0, 11098347521), (0, 15319777), (0, 1498), (62, 0)],
    [(10588652, 0), (12224, 0), (9, 0)], [(0, 9469), (0, 9)]], 3, 4⟩, 17592186044416, 1876793,
    12163522052000482223990726132547279358637956523560314909343631539828892515088186986195907935297661111556005878218306964318501953,
    lc0⟩) (.leaf ⟨1467, 16, 4950, 609, 16, 2976, ⟨[[(19989734860668928, 0), (0, 2474986388180105), (7422940329, 0),
    (0, 652166), (0, 30)], [(22576889510144308, 0), (0, 2334226692741), (820465, 0), (0, 1332)], [(0,
    19291110302289), (49315096, 0), (6730, 0)], [(10298845549, 0), (227507, 0), (24, 0)]], 3, 4⟩, ⟨[[(0,
    16709124438335488), (0, 1673262680667301), (0, 5179342464), (0, 904013), (0, 53)], [(0, 32867511428109105), (0,
    402364952908), (0, 26652376), (0, 2158)], [(8777832245754, 0), (79112156, 0), (0, 5962)], [(0, 1993520095),
    (107752, 0), (19, 0)]], 3, 4⟩, 72057594037927936, 540940586359, 177345891340, ⟨[[(13153600775831, 0),
    (16308435485, 0), (3601793, 0), (0, 15233), (0, 82)], [(0, 11018974086), (0, 15390076), (0, 3708), (44, 0)],
    [(10436169, 0), (11906, 0), (11, 0)], [(0, 9256), (0, 8)]], 3, 4⟩, 17592186044416, 1622048,
    12701684237408926302089986078648169782437932158246108393036725710535777919525571077528837436577113432841718853131805182837782458,
    lc0⟩)) (.leaf ⟨933, 16, 3102, 435, 16, 2173, ⟨[[(5155552861691904, 0), (0, 3229592231240344), (20033070005, 0),
    (0, 3388533), (0, 311)], [(13532744512335890, 0), (0, 2920126883537), (6215238, 0), (0, 6284), (0, 1)], [(0,
    11305579380514), (91457461, 0), (23922, 0), (2, 0)], [(6138198207, 0), (266436, 0), (59, 0)]], 3, 4⟩, ⟨[[(0,
    2244102212857856), (0, 2463656698895107), (0, 16297431464), (0, 5483298), (0, 640)], [(0, 23396973418361618), (0,
    557800053031), (0, 74337500), (0, 12135), (0, 1)], [(6214790364799, 0), (138457867, 0), (0, 10150)], [(0,
    1381239689), (151382, 0), (54, 0)]], 3, 4⟩, 72057594037927936, 388230877867, 168207261540, ⟨[[(12706843567562,
    0), (21745133195, 0), (7541404, 0), (0, 27611), (0, 208)], [(0, 16563354700), (0, 32290680), (0, 13862), (111,
    0), (1, 0)], [(24705868, 0), (38816, 0), (50, 0)], [(0, 34579), (0, 40)]], 3, 4⟩, 17592186044416, 6965481,
    10843709094663897716144480204714139508865983381711281372779054443859930166958686520967439352260236844957618869339199897407496025,
    lc0⟩)) (.sx (.leaf ⟨942, 16, 3234, 425, 16, 2141, ⟨[[(0, 17346053470666752), (0, 3220893400688925), (15271605328,
    0), (0, 3909264), (0, 353)], [(13601807941939518, 0), (0, 3051538869122), (0, 6270180), (0, 7960), (0, 1)], [(0,
    12576728505705), (78029472, 0), (18548, 0), (1, 0)], [(6849886501, 0), (348463, 0), (73, 0)]], 3, 4⟩,
    ⟨[[(25101904763633664, 0), (0, 2421135716896527), (0, 21329122338), (0, 6195960), (0, 706)], [(0,
    23875140327076882), (0, 642212361189), (0, 91680577), (0, 14144), (0, 1)], [(6355314450937, 0), (100293742, 0),
    (0, 18835), (0, 2)], [(0, 1367582076), (199837, 0), (64, 0)]], 3, 4⟩, 72057594037927936, 401653235404,
    200240650152, ⟨[[(13134152262706, 0), (23010099074, 0), (8563638, 0), (0, 28543), (0, 246)], [(0, 17252898636),
    (0, 33640287), (0, 17876), (84, 0), (2, 0)], [(25632832, 0), (39304, 0), (53, 0)], [(0, 35629), (0, 39)]], 3, 4⟩,
    17592186044416, 7736527,
    11045470464070351225810947696341506749964714059661256311982625815453153361588836041849740182755207607574528363145238498710893695,
    lc0⟩) (.leaf ⟨941, 16, 3204, 413, 16, 2149, ⟨[[(0, 30301632984440832), (0, 3317828777524029), (14906888447, 0),
    (0, 4201793), (0, 379)], [(12464381597916683, 0), (0, 3014912821191), (0, 4278890), (0, 7753), (0, 1)], [(0,
    11623445166631), (120714315, 0), (27699, 0), (2, 0)], [(6494652192, 0), (343187, 0), (75, 0)]], 3, 4⟩,
    ⟨[[(8967439989256192, 0), (0, 2457063561770227), (0, 25302380488), (0, 6817567), (0, 759)], [(0,
    23435599188000640), (0, 635078791339), (0, 93271051), (0, 14287), (0, 1)], [(6212297292757, 0), (126477408, 0),
    (0, 10804), (0, 1)], [(0, 1276576064), (208397, 0), (64, 0)]], 3, 4⟩, 72057594037927936, 394123239989,
    188788342600, ⟨[[(12694572136664, 0), (22424562226, 0), (9261408, 0), (0, 17100), (0, 157)], [(0, 16568708850),
    (0, 32719350), (0, 19211), (22, 0), (1, 0)], [(24761375, 0), (37657, 0), (44, 0)], [(0, 34640), (0, 39)]], 3, 4⟩,
    17592186044416, 6617777,
    11025396101788782295671966478373862062053707034715102355342418588013652691915616151892119592876069908624395313260815448202196051,
    lc0⟩))
theorem c81 : checkR job con0 true ⟨7, 9, 7, 9, 13, 17⟩ 1 28336 t81 615 21 1280 31247 251 32000 = true := by decide +kernel

def t82 : CTree :=
  .sx (.sy (.sx (.sx (.sy (.sx (.leaf ⟨2264, 16, 8082, 1156, 16, 5538, ⟨[[(0, 8427755942379520), (0,
    3630405004355064), (7648120315, 0), (0, 1114326), (0, 50)], [(9477806358049399, 0), (0, 957819829477), (0,
    2711128), (0, 702)], [(0, 2303127203714), (0, 2173015), (0, 173)], [(301683997, 0), (7645, 0), (1, 0)]], 3, 4⟩,
    ⟨[[(8398228498235392, 0), (0, 3062333541216787), (0, 11892091416), (0, 1861909), (0, 109)], [(0,
    16455314300543951), (0, 235180048352), (0, 16554160), (0, 1246)], [(1101998279997, 0), (1229239, 0), (0, 1714)],
    [(0, 63934596), (4292, 0), (1, 0)]], 3, 4⟩, 72057594037927936, 9801159253, 11258058515, ⟨[[(14327428823721, 0),
    (9519265881, 0), (918291, 0), (0, 3902), (0, 12)], [(0, 8027893240), (0, 5787840), (0, 676), (7, 0)], [(4944707,
    0), (2900, 0), (2, 0)], [(0, 2848), (0, 1)]], 3, 4⟩, 17592186044416, 265812,
    14055065774035052015683700028029551891868168838109801972988059546230720191099310258212269680814063494136854027272647086526048559,
    lc0⟩) (.leaf ⟨2257, 16, 8038, 1146, 16, 5535, ⟨[[(0, 253980660989952), (0, 3650653033696951), (7492985215, 0),
    (0, 1137645), (0, 51)], [(9235380203143558, 0), (0, 952746474232), (0, 2706970), (0, 701)], [(0, 2252979347750),
    (0, 1199681), (0, 80)], [(296934365, 0), (7658, 0), (1, 0)]], 3, 4⟩, ⟨[[(0, 4964850361155584), (0,
    3070544363082199), (0, 12583516694), (0, 1913369), (0, 111)], [(0, 16354218115584552), (0, 234926546035), (0,
    16685336), (0, 1253)], [(1093442354039, 0), (1776253, 0), (0, 1624)], [(0, 62440534), (4403, 0), (1, 0)]], 3, 4⟩,
    72057594037927936, 9601079780, 11690396403, ⟨[[(14195675874621, 0), (9475348586, 0), (1018554, 0), (0, 3446), (0,
    11)], [(0, 7964612035), (0, 5777511), (0, 831), (5, 0)], [(4925867, 0), (2879, 0), (2, 0)], [(0, 2848), (0, 1)]],
    3, 4⟩, 17592186044416, 275669,
    14014384958908516325585792593196993871033709742202353122736954495783293413188952191784008740681983469856017563275539125544708498,
    lc0⟩)) (.sx (.leaf ⟨2263, 16, 8169, 1129, 16, 5508, ⟨[[(0, 20610322852839424), (0, 3662601115575899),
    (5956355791, 0), (0, 1231057), (0, 54)], [(9093047921102188, 0), (0, 971434263555), (0, 3857542), (0, 775)], [(0,
    2329071720958), (0, 2404772), (0, 241)], [(309002832, 0), (8507, 0), (1, 0)]], 3, 4⟩, ⟨[[(0, 29516115188760576),
    (0, 3059075650605903), (0, 14785555983), (0, 2079680), (0, 119)], [(0, 16487903965647637), (0, 251399801447), (0,
    18410414), (0, 1346)], [(1096200836351, 0), (0, 560854), (0, 1850)], [(0, 61262835), (5008, 0), (1, 0)]], 3, 4⟩,
    72057594037927936, 9464071180, 13265015434, ⟨[[(14330988020138, 0), (9674893386, 0), (1172047, 0), (0, 3145), (0,
    11)], [(0, 8071350626), (0, 5865348), (0, 1098), (4, 0)], [(4995662, 0), (2873, 0), (2, 0)], [(0, 2896), (0,
    1)]], 3, 4⟩, 17592186044416, 256336,
    13782851458636314145588297880222896547934175749137447551954344246200975640486295939438817376291887722513447388976248347897016000,
    lc0⟩) (.leaf ⟨2255, 16, 8124, 1118, 16, 5504, ⟨[[(33432908719161344, 0), (0, 3683004276704105), (5762058126, 0),
    (0, 1256731), (0, 55)], [(8850014116741370, 0), (0, 966238984416), (0, 3852085), (0, 774)], [(0, 2277717991944),
    (0, 1321113), (0, 136)], [(304191699, 0), (8530, 0), (1, 0)]], 3, 4⟩, ⟨[[(13997672487796736, 0), (0,
    3067405838934843), (0, 15550698486), (0, 2134838), (0, 121)], [(0, 16384237461571800), (0, 251237608653), (0,
    18548255), (0, 1353)], [(1087786890468, 0), (77785, 0), (0, 1751)], [(0, 59708580), (5125, 0), (1, 0)]], 3, 4⟩,
    72057594037927936, 9968611119, 12420919032, ⟨[[(14196671041652, 0), (9630894924, 0), (1258146, 0), (0, 2721), (0,
    10)], [(0, 8011413630), (0, 5852880), (0, 1200), (3, 0)], [(4982670, 0), (2855, 0), (2, 0)], [(0, 2902), (0,
    1)]], 3, 4⟩, 17592186044416, 279966,
    12478229818287585479806832933616651163999261220506956994822098278636638247612849762442576588286454449490634233320878041171314550,
    lc0⟩))) (.sy (.leaf ⟨1914, 16, 6791, 865, 16, 4231, ⟨[[(0, 31114236650242048), (0, 3135011250748408),
    (6186345053, 0), (0, 998583), (0, 44)], [(15131513998398370, 0), (0, 1609979238264), (0, 4576034), (0, 1191)],
    [(0, 7425643949308), (861003, 0), (209, 0)], [(1975803757, 0), (52256, 0), (5, 0)]], 3, 4⟩, ⟨[[(5421271500693504,
    0), (0, 2358456919027199), (0, 10427261886), (0, 1523191), (0, 88)], [(0, 24793093437690914), (0, 358736325056),
    (0, 25808553), (0, 1932)], [(3307874246236, 0), (8021503, 0), (0, 4550)], [(0, 368982603), (27881, 0), (4, 0)]],
    3, 4⟩, 72057594037927936, 56591155376, 33879070125, ⟨[[(13993074688204, 0), (12291259933, 0), (1961062, 0), (0,
    6326), (0, 27)], [(0, 9231725996), (0, 8830433), (0, 2040), (11, 0)], [(6743701, 0), (5131, 0), (4, 0)], [(0,
    4605), (0, 3)]], 3, 4⟩, 17592186044416, 524956,
    13863074837850240590480081035156142477018160571752095308044424230625054100709330119438853038161965379161923774497106982395131934,
    lc0⟩) (.leaf ⟨1924, 16, 6905, 843, 16, 4204, ⟨[[(0, 35730287909781504), (0, 3182114034708531), (4690916357, 0),
    (0, 1109745), (0, 49)], [(14562419403494162, 0), (0, 1642620767675), (0, 6560415), (0, 1323)], [(0,
    7549815948274), (1021040, 0), (76, 0)], [(2037005982, 0), (58653, 0), (6, 0)]], 3, 4⟩, ⟨[[(13699780070178816, 0),
    (0, 2354997856131338), (0, 12775449767), (0, 1696008), (0, 95)], [(0, 24820523751286010), (0, 383685444121), (0,
    28657430), (0, 2085)], [(3289596087255, 0), (3245441, 0), (0, 4897)], [(0, 351579652), (32324, 0), (5, 0)]], 3,
    4⟩, 72057594037927936, 56505189313, 33396569210, ⟨[[(13990734476886, 0), (12494145827, 0), (2318409, 0), (0,
    4921), (0, 24)], [(0, 9227474011), (0, 8885442), (0, 2588), (5, 0)], [(6738376, 0), (5039, 0), (3, 0)], [(0,
    4604), (0, 3)]], 3, 4⟩, 17592186044416, 543029,
    10984547152794944489406221629782947017061760310953281020686446987818619839516389034321317952884764326587615329491904124151128427,
    lc0⟩))) (.leaf ⟨950, 16, 3368, 416, 16, 2106, ⟨[[(0, 13821804334383104), (0, 3207478208203833), (10064304236, 0),
    (0, 4454917), (0, 394)], [(13703055701912922, 0), (0, 3197348854373), (0, 21464335), (0, 9936), (0, 1)], [(0,
    13996171570650), (45292493, 0), (9435, 0)], [(7650904191, 0), (442785, 0), (90, 0)]], 3, 4⟩, ⟨[[(0,
    17155415694151680), (0, 2376673594002311), (0, 26570003592), (0, 6931937), (0, 770)], [(0, 24362096245176963),
    (0, 738626682916), (0, 110838874), (0, 16259), (0, 1)], [(6458008579397, 0), (46005344, 0), (0, 30667), (0, 3)],
    [(0, 1343599502), (253355, 0), (75, 0)]], 3, 4⟩, 72057594037927936, 414496612311, 238414813871,
    ⟨[[(13621839884911, 0), (24408919586, 0), (9641775, 0), (0, 29882), (0, 296)], [(0, 18057209297), (0, 35145063),
    (0, 21267), (53, 0), (2, 0)], [(26736187, 0), (40162, 0), (48, 0)], [(0, 36999), (0, 41)]], 3, 4⟩,
    17592186044416, 8907580,
    11837815010772967237191386857706425296690708277231533252499114060388567593796282871027907007053966963971636929848005213098133635,
    lc0⟩)) (.sx (.leaf ⟨958, 16, 3505, 406, 16, 2068, ⟨[[(0, 34691958968942592), (0, 3190053882541244), (4499555671,
    0), (0, 5010714), (0, 433)], [(13848479643328518, 0), (0, 3359938053861), (0, 39557292), (0, 12220), (0, 1)],
    [(0, 15595641856357), (0, 13384672), (0, 4576), (0, 2)], [(8548523142, 0), (547985, 0), (107, 0)]], 3, 4⟩,
    ⟨[[(16385104949952512, 0), (0, 2329944546076227), (0, 31953489806), (0, 7680430), (0, 833)], [(0,
    24856517232742019), (0, 846666436427), (0, 131545750), (0, 18430), (0, 1)], [(6512672541872, 0), (0, 27947383),
    (0, 46282), (0, 5)], [(0, 1313046663), (310200, 0), (87, 0)]], 3, 4⟩, 72057594037927936, 431152970230,
    285415937611, ⟨[[(14113063069161, 0), (25894010217, 0), (10919922, 0), (0, 29115), (0, 342)], [(0, 18870340504),
    (0, 36701370), (0, 23747), (0, 1), (2, 0)], [(27858977, 0), (41473, 0), (28, 0), (1, 0)], [(0, 38548), (0, 49)]],
    3, 4⟩, 17592186044416, 10162628,
    12646143787376590022719660763106602154519904752562740751869537881149055756129178482022878859818321795708559005097423950582660978,
    lc0⟩) (.leaf ⟨958, 16, 3480, 393, 16, 2072, ⟨[[(23974815160262656, 0), (0, 3307393933297518), (2817930299, 0),
    (0, 5487179), (0, 474)], [(12493348032197417, 0), (0, 3334177672795), (0, 39079462), (0, 12232), (0, 1)], [(0,
    14435687926596), (56379259, 0), (9347, 0)], [(8160042172, 0), (560761, 0), (114, 0)]], 3, 4⟩, ⟨[[(0,
    24824889525858304), (0, 2370105935227157), (0, 37626201150), (0, 8479007), (0, 897)], [(0, 24363181215973528),
    (0, 848972719543), (0, 135229922), (0, 18835), (0, 2)], [(6368461020679, 0), (12506689, 0), (0, 35240), (0, 4)],
    [(0, 1176898382), (331049, 0), (89, 0)]], 3, 4⟩, 72057594037927936, 421683585101, 264111889536,
    ⟨[[(13633783207942, 0), (25285010428, 0), (11588949, 0), (0, 14438), (0, 203)], [(0, 18128786470), (0, 35689268),
    (0, 22423), (0, 49), (1, 0)], [(26907519, 0), (40520, 0), (3, 0), (1, 0)], [(0, 37229), (0, 55)]], 3, 4⟩,
    17592186044416, 9081338,
    6804858225154474142998883803181993146263995926555322930453113819786349117606045650298208203601309666702065675879539394986255889,
    lc0⟩))) (.sy (.sx (.leaf ⟨950, 16, 3340, 403, 16, 2112, ⟨[[(0, 35991867852652544), (0, 3313873060145146),
    (9109812315, 0), (0, 4831286), (0, 427)], [(12462828953255378, 0), (0, 3164659296500), (0, 20020860), (0, 9811),
    (0, 1)], [(0, 12943537866914), (100632303, 0), (20851, 0), (1, 0)], [(7275573095, 0), (444488, 0), (93, 0)]], 3,
    4⟩, ⟨[[(0, 9850376847699968), (0, 2414454970513923), (0, 31362839314), (0, 7641290), (0, 830)], [(0,
    23894407331048811), (0, 735485948716), (0, 113336902), (0, 16516), (0, 1)], [(6314006394430, 0), (79016646, 0),
    (0, 21182), (0, 2)], [(0, 1233134928), (266947, 0), (76, 0)]], 3, 4⟩, 72057594037927936, 405001542732,
    222571384948, ⟨[[(13140338914687, 0), (23780969878, 0), (10368264, 0), (0, 16246), (0, 180)], [(0, 17298131000),
    (0, 34100179), (0, 21505), (0, 8), (1, 0)], [(25751253, 0), (38595, 0), (32, 0)], [(0, 35777), (0, 43)]], 3, 4⟩,
    17592186044416, 7652106,
    10235871619877710350965818929310354353522234917957598144977173194321148773391740717632765876404516867256413337445577720836637963,
    lc0⟩) (.leaf ⟨947, 16, 3308, 390, 16, 2118, ⟨[[(21010628691320832, 0), (0, 3413557157976987), (8233040230, 0),
    (0, 5189953), (0, 459)], [(11304182888019119, 0), (0, 3123634345978), (0, 17600274), (0, 9544), (0, 1)], [(0,
    11930655283977), (155219721, 0), (32474, 0), (3, 0)], [(6904278825, 0), (440714, 0), (95, 0)]], 3, 4⟩,
    ⟨[[(14031814667309056, 0), (0, 2452132597250103), (0, 36257398555), (0, 8361285), (0, 890)], [(0,
    23436769412221391), (0, 729486506570), (0, 115037143), (0, 16672), (0, 1)], [(6182501961680, 0), (113515548, 0),
    (0, 11571), (0, 1)], [(0, 1138012462), (275524, 0), (77, 0)]], 3, 4⟩, 72057594037927936, 399399697807,
    208722711071, ⟨[[(12704329772114, 0), (23209656082, 0), (10686040, 0), (0, 8408), (0, 104)], [(0, 16674441463),
    (0, 33269088), (0, 20259), (0, 36)], [(25050680, 0), (37691, 0), (19, 0)], [(0, 35022), (0, 47)]], 3, 4⟩,
    17592186044416, 7271561,
    11135641023401097703497617715344142879590069379063191423697393775729351942187946686833593727148577772437400454765312203901383923,
    lc0⟩)) (.leaf ⟨776, 16, 2788, 256, 16, 1426, ⟨[[(0, 6921460585529344), (0, 2817708257921532), (338033337, 0), (0,
    5011131), (0, 433)], [(17256276010410642, 0), (0, 5320161151878), (0, 58511739), (0, 19355), (0, 2)], [(0,
    41464034687095), (525034117, 0), (101103, 0), (9, 0)], [(49226899744, 0), (3678309, 0), (774, 0)]], 3, 4⟩, ⟨[[(0,
    13407252527945728), (0, 1667881393394085), (0, 31839348749), (0, 6660271), (0, 684)], [(0, 32448447271313938),
    (0, 1160853138386), (0, 190772523), (0, 26382), (0, 2)], [(16965717126984, 0), (212029200, 0), (0, 50035), (0,
    4)], [(0, 5537666707), (1923427, 0), (500, 0)]], 3, 4⟩, 72057594037927936, 4812308755464, 1434855763534,
    ⟨[[(12925749092674, 0), (35482202103, 0), (25110706, 0), (0, 12191), (0, 333)], [(0, 21028359523), (0, 61624822),
    (0, 49640), (0, 234)], [(38855589, 0), (88249, 0), (0, 51), (2, 0)], [(0, 66158), (0, 179), (2, 0)]], 3, 4⟩,
    17592186044416, 24416409,
    11971962926610383422029106618359757434558847425994674509061020351860799712286315440422710578038134277697727996175628577744814213,
    lc0⟩))
theorem c82 : checkR job con0 true ⟨7, 9, 7, 9, 13, 17⟩ 1 28336 t82 297 21 640 31749 251 32000 = true := by decide +kernel

def t83 : CTree :=
  .sy (.sx (.leaf ⟨932, 16, 3072, 423, 16, 2183, ⟨[[(0, 29454001634279424), (0, 3319638255931142), (20143975750, 0),
    (0, 3613530), (0, 331)], [(12493073102489698, 0), (0, 2882891820680), (8455880, 0), (0, 6037), (0, 1)], [(0,
    10447361702271), (123430632, 0), (31110, 0), (3, 0)], [(5809527841, 0), (257236, 0), (59, 0)]], 3, 4⟩,
    ⟨[[(30401575762841600, 0), (0, 2498272964576725), (0, 19522982333), (0, 6020882), (0, 688)], [(0,
    22987392736261218), (0, 547868935682), (0, 75252071), (0, 12194), (0, 1)], [(6073866251828, 0), (158572046, 0),
    (0, 3443)], [(0, 1305043570), (156553, 0), (53, 0)]], 3, 4⟩, 72057594037927936, 379438237192, 157180168152,
    ⟨[[(12276300919683, 0), (21167845855, 0), (8268825, 0), (0, 17252), (0, 135)], [(0, 15884766451), (0, 31415720),
    (0, 16224), (45, 0), (1, 0)], [(23823320, 0), (37078, 0), (47, 0)], [(0, 33575), (0, 38)]], 3, 4⟩,
    17592186044416, 5922748,
    9604442624797015994793933785397375499412336169314769132884072571261706481902287404843202959119432405463208251509518812166884496,
    lc0⟩) (.sy (.leaf ⟨1514, 16, 4923, 585, 16, 3083, ⟨[[(0, 15105187662741504), (0, 2761032937745692), (8805732933,
    0), (0, 738830), (0, 34)], [(19240560959920405, 0), (0, 2303091743069), (5411335, 0), (0, 1105)], [(0,
    15626032961719), (116797963, 0), (14910, 0), (1, 0)], [(8842658821, 0), (186934, 0), (23, 0)]], 3, 4⟩,
    ⟨[[(33769208754462720, 0), (0, 1776362240938766), (0, 7165424995), (0, 1089623), (0, 62)], [(0,
    31660620090397897), (0, 363937097721), (0, 24995798), (0, 2047)], [(8320775529281, 0), (125459899, 0), (973, 0)],
    [(0, 1767816405), (102526, 0), (18, 0)]], 3, 4⟩, 72057594037927936, 489924210289, 125276645866,
    ⟨[[(11895905224955, 0), (14606248056, 0), (4239368, 0), (0, 4550), (0, 24)], [(0, 9376927632), (0, 13350622), (0,
    4980), (5, 0)], [(8672388, 0), (9622, 0), (8, 0)], [(0, 7551), (0, 6)]], 3, 4⟩, 17592186044416, 890964,
    9885789157663379389844175793191155308899807894683199193103845656386159251393238832034770735887382137224667327267174647742302525,
    lc0⟩) (.sx (.leaf ⟨1879, 16, 6201, 821, 16, 4382, ⟨[[(16278285092192256, 0), (0, 3436962826383867), (9577433806,
    0), (0, 1003934), (0, 46)], [(11598019738666865, 0), (0, 1449310946782), (2105574, 0), (0, 770)], [(0,
    4990171932826), (39568682, 0), (4806, 0)], [(1424378977, 0), (33533, 0), (4, 0)]], 3, 4⟩, ⟨[[(9982041074032640,
    0), (0, 2530411951963705), (0, 12232494830), (0, 1699952), (0, 95)], [(0, 22760328188835575), (0, 279468771116),
    (0, 20070056), (0, 1593)], [(2998439813367, 0), (43631158, 0), (247, 0)], [(0, 308434811), (21511, 0), (3, 0)]],
    3, 4⟩, 72057594037927936, 45842101321, 21505315313, ⟨[[(11999216697774, 0), (10443097790, 0), (2202165, 0), (0,
    1363), (0, 6)], [(0, 7679428353), (0, 7657029), (0, 2125)], [(5749370, 0), (4396, 0), (3, 0)], [(0, 4043), (0,
    2)]], 3, 4⟩, 17592186044416, 378195,
    9991218010866655343361195857332764621037946535630360307127842073394401318729955212422985592556112163158685207502236328934415045,
    lc0⟩) (.leaf ⟨1875, 16, 6165, 810, 16, 4391, ⟨[[(0, 5989038604664832), (0, 3477455306413922), (9618471890, 0),
    (0, 1029820), (0, 47)], [(11121382868442482, 0), (0, 1437417210957), (2515493, 0), (0, 744)], [(0,
    4784823794531), (43497664, 0), (5273, 0)], [(1383604985, 0), (32657, 0), (4, 0)]], 3, 4⟩, ⟨[[(0,
    28478991823069184), (0, 2547292130797857), (0, 13101598181), (0, 1770340), (0, 98)], [(0, 22556308748637769), (0,
    276256136196), (0, 20072133), (0, 1589)], [(2966196450822, 0), (46436600, 0), (683, 0)], [(0, 300584816), (21539,
    0), (3, 0)]], 3, 4⟩, 72057594037927936, 44946470374, 20516263847, ⟨[[(11814941687277, 0), (10312918908, 0),
    (2225143, 0), (0, 1103), (0, 4)], [(0, 7548092484), (0, 7571797), (0, 2092)], [(5676897, 0), (4330, 0), (2, 0)],
    [(0, 4011), (0, 2)]], 3, 4⟩, 17592186044416, 360679,
    11023398686077904831270744301825556787651902535463916962555360575679314250525576158273022764587258803255061890991936211190520631,
    lc0⟩)))) (.sx (.sy (.leaf ⟨1531, 16, 5144, 567, 16, 3018, ⟨[[(0, 3754849564557312), (0, 2767980571652748),
    (6601176036, 0), (0, 867461), (0, 39)], [(19103345456196233, 0), (0, 2410587972579), (487388, 0), (0, 1443)],
    [(0, 17408434763405), (123982797, 0), (14428, 0), (1, 0)], [(9904958203, 0), (255880, 0), (29, 0)]], 3, 4⟩,
    ⟨[[(19840031925010432, 0), (0, 1738969526310560), (0, 9309840984), (0, 1232309), (0, 68)], [(0,
    32080946583294080), (0, 421632006518), (0, 31097332), (0, 2403)], [(8479021890687, 0), (107945661, 0), (0,
    1021)], [(0, 1711756989), (138104, 0), (21, 0)]], 3, 4⟩, 72057594037927936, 535465945611, 140699787110,
    ⟨[[(12286518795121, 0), (15556458018, 0), (4778233, 0), (0, 4353), (0, 28)], [(0, 9758978285), (0, 13947986), (0,
    5828)], [(8985980, 0), (9798, 0), (8, 0)], [(0, 7754), (0, 6)]], 3, 4⟩, 17592186044416, 939883,
    11141009708618831926886472973820889952875670749073567734287896623051886950548474905896093930922669870720310435829623080501755719,
    lc0⟩) (.leaf ⟨1549, 16, 5271, 551, 16, 2997, ⟨[[(563307547918336, 0), (0, 2830220677788905), (5363055714, 0), (0,
    972943), (0, 44)], [(18334930181606333, 0), (0, 2470752441560), (0, 1827414), (0, 1614)], [(0, 17770639597964),
    (142427657, 0), (15881, 0), (1, 0)], [(10288897560, 0), (293710, 0), (33, 0)]], 3, 4⟩, ⟨[[(18955256830648320, 0),
    (0, 1737111523888898), (0, 11193315890), (0, 1365664), (0, 74)], [(0, 32075996415978789), (0, 451559556042), (0,
    34633598), (0, 2600)], [(8473589238448, 0), (106238628, 0), (0, 889)], [(0, 1625489439), (159456, 0), (23, 0)]],
    3, 4⟩, 72057594037927936, 552658260839, 141828901005, ⟨[[(12287060806322, 0), (15819206892, 0), (5098277, 0), (0,
    3140), (0, 23)], [(0, 9702451201), (0, 13941603), (0, 5939), (0, 5)], [(8883315, 0), (9603, 0), (6, 0)], [(0,
    7598), (0, 7)]], 3, 4⟩, 17592186044416, 873135,
    11631069110876968526260672234749666163086379972038005022214804201354554373193387634484833198342250640244225574886956920459340789,
    lc0⟩)) (.sy (.sx (.leaf ⟨1885, 16, 6301, 799, 16, 4356, ⟨[[(16794308131700736, 0), (0, 3483413178911300),
    (8123383510, 0), (0, 1117337), (0, 50)], [(11046205460726781, 0), (0, 1471144139552), (908287, 0), (0, 854)],
    [(0, 5049200295772), (45295948, 0), (5261, 0)], [(1465504016, 0), (38331, 0), (4, 0)]], 3, 4⟩, ⟨[[(0,
    21837733613314048), (0, 2528932958490384), (0, 14851614792), (0, 1887712), (0, 103)], [(0, 22769976286505512),
    (0, 299074085479), (0, 22442792), (0, 1728)], [(3002492748955, 0), (43672805, 0), (354, 0)], [(0, 294973378),
    (25016, 0), (4, 0)]], 3, 4⟩, 72057594037927936, 48256409974, 21089653195, ⟨[[(12003753811053, 0), (10612944087,
    0), (2343051, 0), (0, 1025), (0, 5)], [(0, 7702342920), (0, 7716283), (0, 2209), (0, 1)], [(5782952, 0), (4367,
    0), (2, 0)], [(0, 4068), (0, 2)]], 3, 4⟩, 17592186044416, 331203,
    11123494060003984135015931662744353742395695488517854327052453153546379721216636607290056661073532451822607906021223208648865117,
    lc0⟩) (.leaf ⟨1880, 16, 6264, 787, 16, 4364, ⟨[[(31856108138954752, 0), (0, 3524301270371227), (8123161644, 0),
    (0, 1145940), (0, 52)], [(10567349800964448, 0), (0, 1458522471248), (1365793, 0), (0, 825)], [(0,
    4838088389590), (49788345, 0), (5789, 0)], [(1423522375, 0), (37406, 0), (4, 0)]], 3, 4⟩, ⟨[[(0,
    4260281268789248), (0, 2546082607607021), (0, 15822311898), (0, 1963719), (0, 106)], [(0, 22560670576533181), (0,
    295815531521), (0, 22434151), (0, 1723)], [(2971308931394, 0), (46908073, 0), (831, 0)], [(0, 287102398), (25003,
    0), (4, 0)]], 3, 4⟩, 72057594037927936, 47377810027, 21570780389, ⟨[[(11815335348549, 0), (10483596215, 0),
    (2357996, 0), (0, 810), (0, 4)], [(0, 7574041471), (0, 7636017), (0, 2140), (0, 1)], [(5718250, 0), (4313, 0),
    (2, 0)], [(0, 4042), (0, 2)]], 3, 4⟩, 17592186044416, 351457,
    11445303973392449619379161008198903681699254912117160300192903235409176638485827792144338150265122514121869121930783065287154008,
    lc0⟩)) (.leaf ⟨1566, 16, 5294, 538, 16, 3025, ⟨[[(5328285822091264, 0), (0, 2946520684189762), (5339968992, 0),
    (0, 1043736), (0, 47)], [(16969557263294924, 0), (0, 2467968764899), (0, 319662), (0, 1544)], [(0,
    16575236385267), (179756580, 0), (20141, 0), (1, 0)], [(9873219536, 0), (287099, 0), (33, 0)]], 3, 4⟩, ⟨[[(0,
    17990562332008448), (0, 1772282389622731), (0, 12765939771), (0, 1488378), (0, 79)], [(0, 31665737868431116), (0,
    445918041258), (0, 34908754), (0, 2609)], [(8352557893345, 0), (127538105, 0), (2041, 0)], [(0, 1539787420),
    (160974, 0), (23, 0)]], 3, 4⟩, 72057594037927936, 543537029833, 124684736161, ⟨[[(11908802377005, 0),
    (15350820141, 0), (5077872, 0), (0, 1868), (0, 13)], [(0, 9237996094), (0, 13360315), (0, 5367), (0, 7)],
    [(8413716, 0), (9050, 0), (4, 0)], [(0, 7145), (0, 7)]], 3, 4⟩, 17592186044416, 761788,
    11702696407792309406049416927849861842661178031655139102160899346338819417997425409910927979926562275489575420011421619294755899,
    lc0⟩)))
theorem c83 : checkR job con0 true ⟨7, 9, 7, 9, 13, 17⟩ 1 28336 t83 657 21 1280 31247 251 32000 = true := by decide +kernel

def t84 : CTree :=
  .sx (.sy (.sx (.leaf ⟨1865, 16, 6032, 821, 16, 4425, ⟨[[(0, 10995347526975488), (0, 3471749450116355),
    (11017240791, 0), (0, 946983), (0, 43)], [(11200270458114737, 0), (0, 1406108894271), (3931803, 0), (0, 646)],
    [(0, 4534984928395), (41089242, 0), (5220, 0)], [(1307624300, 0), (27551, 0), (3, 0)]], 3, 4⟩, ⟨[[(0,
    27687094673719296), (0, 2565866416195490), (0, 11412394636), (0, 1656128), (0, 93)], [(0, 22348621415321740), (0,
    255286467997), (0, 17856760), (0, 1457)], [(2926909181821, 0), (48491916, 0), (940, 0)], [(0, 304977187), (18339,
    0), (3, 0)]], 3, 4⟩, 72057594037927936, 43441096803, 19833544607, ⟨[[(11632760384588, 0), (10023998519, 0),
    (2113284, 0), (0, 1163), (0, 4)], [(0, 7400064880), (0, 7430919), (0, 1958)], [(5574729, 0), (4302, 0), (2, 0)],
    [(0, 3956), (0, 2)]], 3, 4⟩, 17592186044416, 328896,
    10429787107666164667959646087087269599724920194196168202681925707005713181232474944567693942471855882628494211321894882720812556,
    lc0⟩) (.leaf ⟨1860, 16, 5995, 809, 16, 4435, ⟨[[(0, 15294952373927936), (0, 3509074177280430), (11123188491, 0),
    (0, 967670), (0, 44)], [(10759790128872981, 0), (0, 1393910063485), (4361508, 0), (0, 619)], [(0, 4345337912381),
    (44236761, 0), (5617, 0)], [(1269190099, 0), (26566, 0), (3, 0)]], 3, 4⟩, ⟨[[(35023669106409472, 0), (0,
    2582324153839095), (0, 12187972909), (0, 1720990), (0, 96)], [(0, 22154314966969963), (0, 251683793154), (0,
    17801626), (0, 1450)], [(2895485725817, 0), (50909842, 0), (1330, 0)], [(0, 298197776), (18248, 0), (3, 0)]], 3,
    4⟩, 72057594037927936, 42251053412, 19835966594, ⟨[[(11447538648347, 0), (9894962414, 0), (2134815, 0), (0, 950),
    (0, 3)], [(0, 7271327647), (0, 7350800), (0, 1922)], [(5507421, 0), (4237, 0), (2, 0)], [(0, 3930), (0, 2)]], 3,
    4⟩, 17592186044416, 332133,
    11124187297311496201763342031809518561199927704852264477146404444355360875514502387730962506352641426180936246040034650310106448,
    lc0⟩)) (.sx (.leaf ⟨1870, 16, 6128, 798, 16, 4400, ⟨[[(0, 525949044015104), (0, 3516515469133644), (9675297128,
    0), (0, 1054226), (0, 48)], [(10662345177814446, 0), (0, 1424988035509), (2961316, 0), (0, 716)], [(0,
    4584833189728), (47279115, 0), (5732, 0)], [(1343398416, 0), (31690, 0), (4, 0)]], 3, 4⟩, ⟨[[(11698994620768256,
    0), (0, 2564056040102491), (0, 13971747729), (0, 1840658), (0, 101)], [(0, 22354449783777856), (0, 272799621471),
    (0, 20037648), (0, 1583)], [(2934828770505, 0), (49245640, 0), (1115, 0)], [(0, 293298758), (21480, 0), (3, 0)]],
    3, 4⟩, 72057594037927936, 44202060160, 19624425277, ⟨[[(11628154075592, 0), (10183698071, 0), (2243579, 0), (0,
    888), (0, 3)], [(0, 7419571224), (0, 7491378), (0, 2039), (0, 1)], [(5610945, 0), (4269, 0), (2, 0)], [(0, 3986),
    (0, 2)]], 3, 4⟩, 17592186044416, 316016,
    11552666968743049923836295457729669337476700710110447371474778593403482415513597769694416770246001934303129679476073111879314159,
    lc0⟩) (.sy (.leaf ⟨3116, 16, 10143, 1118, 16, 6231, ⟨[[(0, 28233650192318464), (0, 2961789421256766),
    (4226316560, 0), (0, 219178), (0, 5)], [(17317658532596824, 0), (0, 1176634356438), (1539385, 0), (0, 140)], [(0,
    7322367098323), (41109126, 0), (2522, 0)], [(2165112843, 0), (24721, 0), (2, 0)]], 3, 4⟩, ⟨[[(21895459209674752,
    0), (0, 1821007529095446), (0, 4992909206), (0, 328427), (0, 9)], [(0, 31262726772777015), (0, 186662244817), (0,
    6847367), (0, 272)], [(4095248438107, 0), (36509574, 0), (525, 0)], [(0, 408680924), (14493, 0), (1, 0)]], 3, 4⟩,
    72057594037927936, 61530677673, 12769945934, ⟨[[(11449923696394, 0), (7098342805, 0), (1116914, 0), (0, 279), (0,
    1)], [(0, 4360593603), (0, 3136347), (0, 591)], [(1981142, 0), (1069, 0)], [(0, 846)]], 3, 4⟩, 17592186044416,
    124545,
    11203711549976188417995643456625353177011857767685548314395017160680388005263846373819853189061202889434342884963525744093950450,
    lc0⟩) (.leaf ⟨3133, 16, 10267, 1102, 16, 6213, ⟨[[(0, 12565605936660480), (0, 2993873036641109), (3936142671, 0),
    (0, 232187), (0, 5)], [(16931853126381784, 0), (0, 1189562875498), (1340731, 0), (0, 148)], [(0, 7390343147199),
    (44227486, 0), (2659, 0)], [(2204546140, 0), (26642, 0), (2, 0)]], 3, 4⟩, ⟨[[(29230703456780288, 0), (0,
    1820997599987329), (0, 5485426565), (0, 345887), (0, 9)], [(0, 31267604612019291), (0, 193186074366), (0,
    7245302), (0, 283)], [(4101828235359, 0), (36949590, 0), (564, 0)], [(0, 399951542), (15633, 0), (1, 0)]], 3, 4⟩,
    72057594037927936, 63647482795, 14286999334, ⟨[[(11450093599359, 0), (7155782038, 0), (1145847, 0), (0, 242), (0,
    1)], [(0, 4350446962), (0, 3136798), (0, 592)], [(1972496, 0), (1059, 0)], [(0, 839)]], 3, 4⟩, 17592186044416,
    131382,
    11273006993559211163476769021793006265132376807566125276805033981036601024070105080078407172466222819348993466810310981552286922,
    lc0⟩)))) (.sy (.sx (.sy (.leaf ⟨3094, 16, 9906, 1138, 16, 6297, ⟨[[(0, 33806644390625280), (0, 2949844398914385),
    (4827500204, 0), (0, 200484), (0, 5)], [(17475497116620184, 0), (0, 1149476540884), (2095236, 0), (0, 120)], [(0,
    6928722113413), (38027232, 0), (2446, 0)], [(2042362497, 0), (20523, 0), (1, 0)]], 3, 4⟩, ⟨[[(0,
    34879692887572480), (0, 1838440690614540), (0, 4355904735), (0, 307536), (0, 9)], [(0, 31068841042472472), (0,
    172469919600), (0, 6083620), (0, 249)], [(4048973461494, 0), (37466223, 0), (586, 0)], [(0, 416665238), (12283,
    0), (1, 0)]], 3, 4⟩, 72057594037927936, 59907195026, 14046000963, ⟨[[(11284392316360, 0), (6882619381, 0),
    (1057411, 0), (0, 302), (0, 1)], [(0, 4285763199), (0, 3076727), (0, 557)], [(1952847, 0), (1064, 0)], [(0,
    839)]], 3, 4⟩, 17592186044416, 118760,
    10689498102285615621767835858447766192839507059657093316778027398227446684150011298687185127270491834401295117683581471958201857,
    lc0⟩) (.leaf ⟨3110, 16, 10026, 1121, 16, 6279, ⟨[[(16048589023772672, 0), (0, 2980828681008519), (4573290204, 0),
    (0, 212413), (0, 5)], [(17103684536005690, 0), (0, 1161365094971), (1933945, 0), (0, 127)], [(0, 6992702530742),
    (41024137, 0), (2578, 0)], [(2077880696, 0), (22178, 0), (1, 0)]], 3, 4⟩, ⟨[[(34404341484732416, 0), (0,
    1837782518945244), (0, 4818341316), (0, 324137), (0, 9)], [(0, 31067923572142312), (0, 178258236489), (0,
    6449212), (0, 260)], [(4056304529675, 0), (37967244, 0), (628, 0)], [(0, 409061032), (13312, 0), (1, 0)]], 3, 4⟩,
    72057594037927936, 60224270870, 12384862521, ⟨[[(11280648093611, 0), (6938583855, 0), (1087204, 0), (0, 265), (0,
    1)], [(0, 4275076527), (0, 3078229), (0, 562)], [(1944905, 0), (1052, 0)], [(0, 833)]], 3, 4⟩, 17592186044416,
    126230,
    11090940451296595773751729592575735374797549877554521920884830570221389338116410905129097012242508318151464016211492229925476931,
    lc0⟩)) (.sy (.leaf ⟨3104, 16, 9906, 1125, 16, 6327, ⟨[[(0, 32483563342102528), (0, 2998053827434261),
    (4919914008, 0), (0, 205400), (0, 5)], [(16904206393560405, 0), (0, 1146175018316), (2307780, 0), (0, 114)], [(0,
    6674461256056), (40563756, 0), (2614, 0)], [(1993633789, 0), (19728, 0), (1, 0)]], 3, 4⟩, ⟨[[(0,
    11590053785812992), (0, 1854410271432560), (0, 4632271632), (0, 319472), (0, 9)], [(0, 30877323098015525), (0,
    170064432273), (0, 6057701), (0, 248)], [(4016104892634, 0), (39188688, 0), (718, 0)], [(0, 409374985), (12159,
    0), (1, 0)]], 3, 4⟩, 72057594037927936, 58779339022, 12148058212, ⟨[[(11116458786127, 0), (6780792066, 0),
    (1057200, 0), (0, 255), (0, 1)], [(0, 4191118794), (0, 3021192), (0, 535)], [(1908687, 0), (1035, 0)], [(0,
    820)]], 3, 4⟩, 17592186044416, 130215,
    10864176191796460788192666836997875561791476820225207292438105653039510770130304993281954459035236495307005923981009093614363168,
    lc0⟩) (.leaf ⟨3120, 16, 10026, 1109, 16, 6309, ⟨[[(1645293329973248, 0), (0, 3029532020225061), (4659169106, 0),
    (0, 217604), (0, 5)], [(16527205668157998, 0), (0, 1157803129110), (2158044, 0), (0, 120)], [(0, 6734029084973),
    (43767228, 0), (2758, 0)], [(2028152496, 0), (21352, 0), (1, 0)]], 3, 4⟩, ⟨[[(0, 18731322298482688), (0,
    1854017468168221), (0, 5112330429), (0, 336603), (0, 9)], [(0, 30876161972551211), (0, 175834995650), (0,
    6421303), (0, 259)], [(4024480737577, 0), (39821554, 0), (767, 0)], [(0, 401863372), (13171, 0), (1, 0)]], 3, 4⟩,
    72057594037927936, 59135620596, 12185356875, ⟨[[(11119091876047, 0), (6837643624, 0), (1084062, 0), (0, 226)],
    [(0, 4183781497), (0, 3023881), (0, 538)], [(1902224, 0), (1025, 0)], [(0, 814)]], 3, 4⟩, 17592186044416, 132796,
    11015906379713068468188864230867067183305438916879810848511050507932660992982099353634694519948325977219573637112755554161287643,
    lc0⟩))) (.sx (.sx (.leaf ⟨2061, 16, 6717, 983, 16, 5579, ⟨[[(20294930894946304, 0), (0, 3969019443114587),
    (10879454965, 0), (0, 1211353), (0, 55)], [(5485978577228093, 0), (0, 776890183324), (2119120, 0), (0, 366)],
    [(0, 1176869308434), (14824490, 0), (1804, 0)], [(176542313, 0), (4126, 0), (1, 0)]], 3, 4⟩,
    ⟨[[(28732116172333056, 0), (0, 3276181879044702), (0, 19573609892), (0, 2480432), (0, 134)], [(0,
    13901672152390595), (0, 168139703782), (0, 12564988), (0, 990)], [(910252520585, 0), (17099995, 0), (587, 0)],
    [(0, 44509873), (3345, 0), (1, 0)]], 3, 4⟩, 72057594037927936, 7279009335, 11589057238, ⟨[[(11323871123726, 0),
    (7890541376, 0), (1414996, 0), (0, 317), (0, 1)], [(0, 6512258976), (0, 5263475), (0, 1087), (0, 1)], [(4490585,
    0), (2697, 0), (1, 0)], [(0, 2908), (0, 1)]], 3, 4⟩, 17592186044416, 216446,
    11255738459618413168951039972496529670670357743264599552796647121655025902057496247441860327780116669576997208466203757288768093,
    lc0⟩) (.leaf ⟨2053, 16, 6681, 975, 16, 5578, ⟨[[(27822838070312960, 0), (0, 3980175538774905), (10912875260, 0),
    (0, 1219970), (0, 55)], [(5359174613971504, 0), (0, 771466231281), (2261205, 0), (0, 356)], [(0, 1148569759190),
    (15257846, 0), (1859, 0)], [(173486489, 0), (4035, 0), (1, 0)]], 3, 4⟩, ⟨[[(10327960957337600, 0), (0,
    3282624839847869), (0, 20096662514), (0, 2521448), (0, 136)], [(0, 13822967443604434), (0, 166655764840), (0,
    12510685), (0, 985)], [(904514895795, 0), (17516881, 0), (652, 0)], [(0, 43985149), (3321, 0), (1, 0)]], 3, 4⟩,
    72057594037927936, 7555211418, 10772267490, ⟨[[(11242437325760, 0), (7853705000, 0), (1419383, 0), (0, 295), (0,
    1)], [(0, 6478565689), (0, 5259317), (0, 1072), (0, 1)], [(4491031, 0), (2699, 0), (1, 0)], [(0, 2923), (0, 1)]],
    3, 4⟩, 17592186044416, 225313,
    11084191787311046889685001072710622222194523478824865008766138850819578443190104225645009875624822345808149522320473694413151382,
    lc0⟩)) (.sy (.leaf ⟨3136, 16, 10147, 1093, 16, 6290, ⟨[[(23988231478181888, 0), (0, 3061529090015433),
    (4376061663, 0), (0, 230489), (0, 5)], [(16138969406109245, 0), (0, 1169676896728), (1996505, 0), (0, 127)], [(0,
    6792350073844), (47156555, 0), (2910, 0)], [(2063845048, 0), (23087, 0), (2, 0)]], 3, 4⟩, ⟨[[(0,
    35655002799292416), (0, 1853809682139324), (0, 5616390278), (0, 354400), (0, 10)], [(0, 30872825859486287), (0,
    181930817335), (0, 6798892), (0, 269)], [(4032487999628, 0), (40495530, 0), (817, 0)], [(0, 393788454), (14227,
    0), (1, 0)]], 3, 4⟩, 72057594037927936, 60978173745, 13011313267, ⟨[[(11122008770250, 0), (6895650553, 0),
    (1110354, 0), (0, 200)], [(0, 4177028601), (0, 3026987), (0, 538)], [(1896123, 0), (1016, 0)], [(0, 809)]], 3,
    4⟩, 17592186044416, 128507,
    10923283407735115989464216525658038317995272989346984250186942523516038699839498781358531339432389644662874884017131977156072427,
    lc0⟩) (.leaf ⟨3153, 16, 10270, 1076, 16, 6271, ⟨[[(0, 15934277343051776), (0, 3094372603000357), (4069686997, 0),
    (0, 244111), (0, 6)], [(15740800222970072, 0), (0, 1181925426944), (1822662, 0), (0, 134)], [(0, 6849973480636),
    (50747838, 0), (3071, 0)], [(2100984785, 0), (24943, 0), (2, 0)]], 3, 4⟩, ⟨[[(22269401481920512, 0), (0,
    1854103768675483), (0, 6146191801), (0, 372933), (0, 10)], [(0, 30872365236230583), (0, 188392816174), (0,
    7191903), (0, 281)], [(4040784462308, 0), (41218750, 0), (870, 0)], [(0, 385193273), (15330, 0), (1, 0)]], 3, 4⟩,
    72057594037927936, 63359520582, 11273114325, ⟨[[(11114155252262, 0), (6949001069, 0), (1136029, 0), (0, 174)],
    [(0, 4164270533), (0, 3027204), (0, 534)], [(1887123, 0), (1007, 0)], [(0, 802)]], 3, 4⟩, 17592186044416, 122718,
    11021269040202590617926739249652353937311757272251064223841374783757252478454958604786886070743098334529617807975734036093244326,
    lc0⟩))))
theorem c84 : checkR job con0 true ⟨7, 9, 7, 9, 13, 17⟩ 1 28336 t84 699 21 1280 62243 251 64000 = true := by decide +kernel

def t85 : CTree :=
  .sx (.sy (.sx (.leaf ⟨1875, 16, 6225, 775, 16, 4372, ⟨[[(0, 18798679585603584), (0, 3563145310602300), (8140067276,
    0), (0, 1172693), (0, 53)], [(10105116105950427, 0), (0, 1445090104751), (1863834, 0), (0, 793)], [(0,
    4631789602013), (54112515, 0), (6307, 0)], [(1381852994, 0), (36367, 0), (4, 0)]], 3, 4⟩, ⟨[[(20326116883841024,
    0), (0, 2563112313999138), (0, 16793531686), (0, 2039618), (0, 110)], [(0, 22353488982675471), (0, 292277986857),
    (0, 22385493), (0, 1716)], [(2941011868965, 0), (50141476, 0), (1304, 0)], [(0, 279840721), (24895, 0), (4, 0)]],
    3, 4⟩, 72057594037927936, 46355949501, 21678424424, ⟨[[(11624934861221, 0), (10349992956, 0), (2364482, 0), (0,
    651), (0, 3)], [(0, 7442458304), (0, 7555470), (0, 2059), (0, 2)], [(5650398, 0), (4260, 0), (2, 0)], [(0, 4015),
    (0, 2)]], 3, 4⟩, 17592186044416, 346173,
    11312798821380461583606505404181224217542457756447067455435673340125744076546648174646617238589134155994257520079046284641340070,
    lc0⟩) (.leaf ⟨1869, 16, 6186, 764, 16, 4380, ⟨[[(0, 19057288201437184), (0, 3601038007081154), (8178237119, 0),
    (0, 1197838), (0, 54)], [(9662384064766772, 0), (0, 1431329862260), (2401578, 0), (0, 758)], [(0, 4431784391072),
    (58270880, 0), (6813, 0)], [(1340935530, 0), (35230, 0), (4, 0)]], 3, 4⟩, ⟨[[(0, 20204839888445440), (0,
    2580010046569553), (0, 17763593618), (0, 2115301), (0, 113)], [(0, 22148365614555682), (0, 288461617120), (0,
    22297169), (0, 1707)], [(2911528225792, 0), (53361381, 0), (1771, 0)], [(0, 273162384), (24698, 0), (4, 0)]], 3,
    4⟩, 72057594037927936, 45701065404, 20239615765, ⟨[[(11454691573175, 0), (10229112825, 0), (2366322, 0), (0,
    544), (0, 2)], [(0, 7330695830), (0, 7489985), (0, 1980), (0, 2)], [(5599182, 0), (4222, 0), (2, 0)], [(0, 3999),
    (0, 2)]], 3, 4⟩, 17592186044416, 311171,
    11414200247430219540473398614455978591232205004141368696792110930353879524022748155445910335914330875783648091494874716901869063,
    lc0⟩)) (.sy (.leaf ⟨2415, 16, 8088, 664, 16, 3845, ⟨[[(15859831005020160, 0), (0, 2330788959406589), (2206293107,
    0), (0, 206635), (0, 5)], [(24347048711816183, 0), (0, 1872908641055), (796488, 0), (0, 270)], [(0,
    23506847406240), (159815793, 0), (9096, 0)], [(14341308435, 0), (204448, 0), (12, 0)]], 3, 4⟩,
    ⟨[[(20101218833620992, 0), (0, 1135881614750842), (0, 4332222268), (0, 247185), (0, 7)], [(0, 39299259491946984),
    (0, 270604339247), (0, 10694741), (0, 401)], [(10353679457423, 0), (93098099, 0), (1506, 0)], [(0, 1873683350),
    (97298, 0), (7, 0)]], 3, 4⟩, 72057594037927936, 799710410177, 121309218307, ⟨[[(11539139444020, 0), (11799880057,
    0), (3141981, 0), (0, 660), (0, 3)], [(0, 5754414257), (0, 6663241), (0, 1988), (0, 2)], [(3414264, 0), (2911,
    0), (1, 0)], [(0, 1887), (0, 1)]], 3, 4⟩, 17592186044416, 172279,
    11256327833809042652354568334795019099967174946516421965298128153632652413503201826547027157463441322696543473277364486876115532,
    lc0⟩) (.leaf ⟨2443, 16, 8238, 654, 16, 3831, ⟨[[(34681806506983424, 0), (0, 2371921078630329), (1923036571, 0),
    (0, 220108), (0, 5)], [(23841121151940343, 0), (0, 1907039830503), (388429, 0), (0, 287)], [(0, 23858722477762),
    (172277197, 0), (9658, 0)], [(14715017726, 0), (221095, 0), (13, 0)]], 3, 4⟩, ⟨[[(0, 2864325986893824), (0,
    1136268993712784), (0, 4697310430), (0, 259603), (0, 7)], [(0, 39294252416631503), (0, 280623892890), (0,
    11270573), (0, 417)], [(10362933013329, 0), (94319816, 0), (1609, 0)], [(0, 1816420402), (104071, 0), (7, 0)]],
    3, 4⟩, 72057594037927936, 819240216417, 118935661618, ⟨[[(11544469817406, 0), (11905427923, 0), (3211655, 0), (0,
    551), (0, 2)], [(0, 5711271475), (0, 6631594), (0, 1946), (0, 2)], [(3360682, 0), (2871, 0), (1, 0)], [(0, 1835),
    (0, 1)]], 3, 4⟩, 17592186044416, 178720,
    10832256563533776045967976919018057014170034269803971907633267596745319684071830758030617198015314057947168758759060089778297619,
    lc0⟩))) (.sy (.sx (.sy (.leaf ⟨3161, 16, 10396, 1073, 16, 6221, ⟨[[(0, 32950104260804608), (0, 3078119531743274),
    (3675817567, 0), (0, 252418), (0, 6)], [(15925403145594658, 0), (0, 1199116769689), (1372569, 0), (0, 149)], [(0,
    7180380591776), (51106338, 0), (3026, 0)], [(2192762149, 0), (27861, 0), (2, 0)]], 3, 4⟩, ⟨[[(0,
    7398941431480320), (0, 1837495224305730), (0, 6350349012), (0, 377996), (0, 10)], [(0, 31062323748672043), (0,
    197690042347), (0, 7633939), (0, 294)], [(4077001619233, 0), (39700590, 0), (765, 0)], [(0, 382857881), (16676,
    0), (1, 0)]], 3, 4⟩, 72057594037927936, 64477623404, 12081365964, ⟨[[(11281775870743, 0), (7111342036, 0),
    (1168203, 0), (0, 176)], [(0, 4246213791), (0, 3082469), (0, 559)], [(1920220, 0), (1024, 0)], [(0, 812)]], 3,
    4⟩, 17592186044416, 131591,
    11087613340468736156194815322889871094028389627524674364705806719631937066045927947408186072562592239015780570993153487692488008,
    lc0⟩) (.leaf ⟨3178, 16, 10524, 1056, 16, 6200, ⟨[[(0, 17219615171149824), (0, 3112478816867290), (3327439309, 0),
    (0, 267312), (0, 6)], [(15512446196921213, 0), (0, 1212601603627), (1157098, 0), (0, 158)], [(0, 7242034502891),
    (54876097, 0), (3194, 0)], [(2234371616, 0), (30024, 0), (2, 0)]], 3, 4⟩, ⟨[[(35654269838671872, 0), (0,
    1837936628587112), (0, 6911655140), (0, 397322), (0, 10)], [(0, 31058327952444727), (0, 204885955399), (0,
    8058918), (0, 306)], [(4083297912443, 0), (40357958, 0), (814, 0)], [(0, 372905149), (17894, 0), (1, 0)]], 3, 4⟩,
    72057594037927936, 64587274443, 13622541053, ⟨[[(11278481200745, 0), (7170999679, 0), (1194852, 0), (0, 150)],
    [(0, 4236488197), (0, 3084761), (0, 553)], [(1912498, 0), (1019, 0)], [(0, 805)]], 3, 4⟩, 17592186044416, 126010,
    10815781826619627728667754391444380321871576333369929231290576535201331995172275156438169865829611070540587667463958107856519492,
    lc0⟩)) (.sy (.leaf ⟨3170, 16, 10396, 1060, 16, 6250, ⟨[[(0, 25106235443609600), (0, 3128390237113024),
    (3738931326, 0), (0, 258532), (0, 6)], [(15333761706111576, 0), (0, 1194678002859), (1635904, 0), (0, 142)], [(0,
    6907431406504), (54559036, 0), (3244, 0)], [(2139854337, 0), (26930, 0), (2, 0)]], 3, 4⟩, ⟨[[(0,
    13759961667256320), (0, 1854331039584368), (0, 6700624174), (0, 392095), (0, 10)], [(0, 30865080045538822), (0,
    195173008513), (0, 7598397), (0, 292)], [(4048098665481, 0), (41979771, 0), (924, 0)], [(0, 375934977), (16477,
    0), (1, 0)]], 3, 4⟩, 72057594037927936, 63404995405, 12556591874, ⟨[[(11117161094422, 0), (7009159223, 0),
    (1161283, 0), (0, 153)], [(0, 4157118163), (0, 3030475), (0, 530)], [(1880337, 0), (1001, 0)], [(0, 795)]], 3,
    4⟩, 17592186044416, 118496,
    10811902897902379018861596491679799698562882219600762703456684618924779200235259481233586499750599865002991765514697243630097422,
    lc0⟩) (.leaf ⟨3186, 16, 10523, 1043, 16, 6228, ⟨[[(23413191206928384, 0), (0, 3163008495317213), (3381488227, 0),
    (0, 273743), (0, 6)], [(14914426730356751, 0), (0, 1207720024514), (1435084, 0), (0, 150)], [(0, 6963251683826),
    (58593423, 0), (3427, 0)], [(2180125165, 0), (29051, 0), (2, 0)]], 3, 4⟩, ⟨[[(13076041264349184, 0), (0,
    1854808220543509), (0, 7281332897), (0, 411953), (0, 11)], [(0, 30856012255215689), (0, 202311254202), (0,
    8019733), (0, 304)], [(4055086114527, 0), (42786590, 0), (981, 0)], [(0, 366057102), (17673, 0), (1, 0)]], 3, 4⟩,
    72057594037927936, 64508851894, 11583239818, ⟨[[(11117414238102, 0), (7071275057, 0), (1187154, 0), (0, 133)],
    [(0, 4151191104), (0, 3035452), (0, 524)], [(1875136, 0), (997, 0)], [(0, 789)]], 3, 4⟩, 17592186044416, 111311,
    10283091718530368107904125561734654782460839049887073019211380065091711723969836880973401518827489676652470233831213890930802107,
    lc0⟩))) (.leaf ⟨1590, 16, 5312, 511, 16, 3079, ⟨[[(0, 21689834984538112), (0, 3163113161789823), (5493468127, 0),
    (0, 1168603), (0, 52)], [(14436453255567747, 0), (0, 2440120284202), (3775888, 0), (0, 1323)], [(0,
    14249061089185), (249962903, 0), (28512, 0), (2, 0)], [(9007246377, 0), (262010, 0), (32, 0)]], 3, 4⟩, ⟨[[(0,
    29037845626490880), (0, 1841033143133683), (0, 15950122233), (0, 1735193), (0, 90)], [(0, 30834682234357461), (0,
    428634178572), (0, 34695164), (0, 2578)], [(8127968468085, 0), (170420735, 0), (7820, 0), (1, 0)], [(0,
    1408185418), (157003, 0), (22, 0)]], 3, 4⟩, 72057594037927936, 529745405391, 94496592814, ⟨[[(11203033002794, 0),
    (14482599669, 0), (4949369, 0), (0, 932), (0, 3)], [(0, 8441200784), (0, 12418239), (0, 4287), (0, 6)],
    [(7666487, 0), (8208, 0), (3, 0)], [(0, 6453), (0, 6)]], 3, 4⟩, 17592186044416, 575448,
    10936056568700694337559251882340073119958230229106223296288821653224548372160559978039179044316019157104506819795325733578084869,
    lc0⟩))
theorem c85 : checkR job con0 true ⟨7, 9, 7, 9, 13, 17⟩ 1 28336 t85 699 21 1280 62745 251 64000 = true := by decide +kernel

def t86 : CTree :=
  .sy (.sx (.sy (.sx (.leaf ⟨1568, 16, 5403, 535, 16, 2975, ⟨[[(0, 28416395334385664), (0, 2896354696786485),
    (3926036467, 0), (0, 1090682), (0, 48)], [(17522021499917321, 0), (0, 2535795270482), (0, 4476574), (0, 1805)],
    [(0, 18138170623957), (162953533, 0), (17526, 0), (1, 0)], [(10706527263, 0), (336869, 0), (38, 0)]], 3, 4⟩,
    ⟨[[(11680464352821248, 0), (0, 1736578316642752), (0, 13266773190), (0, 1509261), (0, 80)], [(0,
    32074553152125355), (0, 484769191291), (0, 38435499), (0, 2808)], [(8464116177970, 0), (104638245, 0), (0, 750)],
    [(0, 1528076924), (182661, 0), (25, 0)]], 3, 4⟩, 72057594037927936, 569691498000, 142623514061,
    ⟨[[(12284712930793, 0), (16083296572, 0), (5384496, 0), (0, 2094), (0, 17)], [(0, 9641131746), (0, 13930995), (0,
    5819), (0, 8)], [(8772648, 0), (9492, 0), (4, 0)], [(0, 7423), (0, 7)]], 3, 4⟩, 17592186044416, 847216,
    10894662111790029421940862484429464585752414075877191018796841936484189427465732006384487634941641509415750558901507668089148366,
    lc0⟩) (.leaf ⟨1584, 16, 5427, 521, 16, 3001, ⟨[[(28262311329251328, 0), (0, 3015883054200575), (3788474571, 0),
    (0, 1169949), (0, 52)], [(16125547039026816, 0), (0, 2531532046004), (0, 2817913), (0, 1726)], [(0,
    16893803964998), (205849076, 0), (22363, 0), (1, 0)], [(10277901581, 0), (330364, 0), (38, 0)]], 3, 4⟩,
    ⟨[[(13547984663437312, 0), (0, 1772093527329504), (0, 15010558060), (0, 1641156), (0, 85)], [(0,
    31645642287508486), (0, 479163905438), (0, 38699884), (0, 2817)], [(8350351015032, 0), (128769368, 0), (2450,
    0)], [(0, 1441446033), (183813, 0), (25, 0)]], 3, 4⟩, 72057594037927936, 563799971190, 125484651353,
    ⟨[[(11905077305930, 0), (15622913103, 0), (5330229, 0), (0, 1194), (0, 8)], [(0, 9191400883), (0, 13380652), (0,
    5169), (0, 8)], [(8329956, 0), (9020, 0), (3, 0)], [(0, 6991), (0, 7)]], 3, 4⟩, 17592186044416, 720741,
    11118750389546881468640090343963730984695720087710125687929197409566902384692692530472210530803967019473713412184289569161796667,
    lc0⟩)) (.sx (.leaf ⟨1587, 16, 5541, 519, 16, 2950, ⟨[[(0, 2648349066346496), (0, 2967160366677854), (2264782223,
    0), (0, 1222162), (0, 54)], [(16662678946747697, 0), (0, 2606613332168), (0, 7503825), (0, 2019)], [(0,
    18512906678303), (185861007, 0), (19391, 0), (1, 0)], [(11163446806, 0), (386130, 0), (43, 0)]], 3, 4⟩, ⟨[[(0,
    27398799801163776), (0, 1736365458395227), (0, 15532197077), (0, 1662307), (0, 86)], [(0, 32056292529778255), (0,
    521125742152), (0, 42486534), (0, 3027)], [(8444900121075, 0), (103080920, 0), (0, 605)], [(0, 1417743958),
    (207708, 0), (28, 0)]], 3, 4⟩, 72057594037927936, 587146306294, 141880744642, ⟨[[(12297140218379, 0),
    (16382547047, 0), (5653639, 0), (0, 1262), (0, 12)], [(0, 9600155733), (0, 13960203), (0, 5542), (0, 10)],
    [(8680232, 0), (9524, 0), (1, 0)], [(0, 7247), (0, 8)]], 3, 4⟩, 17592186044416, 718290,
    9766970742471727012007879322265496607189955434340777385063793012634041877946761529639713133663279048899378167117535355235413599,
    lc0⟩) (.leaf ⟨1603, 16, 5564, 504, 16, 2975, ⟨[[(0, 10139362334867456), (0, 3089051046233738), (1995235225, 0),
    (0, 1310435), (0, 57)], [(15228755823266368, 0), (0, 2599716311351), (0, 5672652), (0, 1929)], [(0,
    17208391693692), (235024559, 0), (24871, 0), (1, 0)], [(10717485703, 0), (379625, 0), (43, 0)]], 3, 4⟩,
    ⟨[[(27309100931952640, 0), (0, 1772954293205225), (0, 17462394682), (0, 1804298), (0, 92)], [(0,
    31619956540639409), (0, 515701782919), (0, 42750615), (0, 3035)], [(8342737087200, 0), (130317607, 0), (2884,
    0)], [(0, 1330988646), (208509, 0), (27, 0)]], 3, 4⟩, 72057594037927936, 586538099851, 122926602916,
    ⟨[[(11897367358285, 0), (15901037450, 0), (5564816, 0), (0, 726), (0, 4)], [(0, 9138223819), (0, 13412183), (0,
    4884), (0, 8)], [(8232465, 0), (9099, 0), (1, 0)], [(0, 6801), (0, 9)]], 3, 4⟩, 17592186044416, 666756,
    9533242217179707707952697299206887733147272433358335425348655387933776796822465716793182022034826070792459048184615063918711447,
    lc0⟩))) (.sy (.sx (.leaf ⟨1597, 16, 5440, 507, 16, 3027, ⟨[[(14771676700114944, 0), (0, 3129298108195070),
    (3721257243, 0), (0, 1243116), (0, 55)], [(14795384159955764, 0), (0, 2518530357076), (0, 741788), (0, 1616)],
    [(0, 15665856395590), (247353348, 0), (27167, 0), (2, 0)], [(9832112521, 0), (319154, 0), (37, 0)]], 3, 4⟩,
    ⟨[[(21846727168757760, 0), (0, 1807502983912807), (0, 16773855522), (0, 1774064), (0, 91)], [(0,
    31219845587198293), (0, 471428011101), (0, 38694405), (0, 2808)], [(8244960216962, 0), (153081734, 0), (5627,
    0)], [(0, 1369958892), (182393, 0), (25, 0)]], 3, 4⟩, 72057594037927936, 560007042947, 108746375426,
    ⟨[[(11538636894069, 0), (15174273131, 0), (5248246, 0), (0, 828), (0, 3)], [(0, 8778210282), (0, 12894052), (0,
    4600), (0, 7)], [(7940881, 0), (8611, 0), (2, 0)], [(0, 6619), (0, 7)]], 3, 4⟩, 17592186044416, 596492,
    10505917029435144663669173891621051007368455638062659784610837365223016113166435938525138587045800022676264774827690900175004852,
    lc0⟩) (.leaf ⟨1607, 16, 5444, 494, 16, 3053, ⟨[[(0, 26250215659847680), (0, 3236995074457637), (3743536253, 0),
    (0, 1309078), (0, 58)], [(13540610933290973, 0), (0, 2497925460203), (1738357, 0), (0, 1476)], [(0,
    14466962220515), (286814589, 0), (31858, 0), (2, 0)], [(9374484959, 0), (303444, 0), (37, 0)]], 3, 4⟩, ⟨[[(0,
    35348149453471744), (0, 1842712429808745), (0, 18545217045), (0, 1907252), (0, 97)], [(0, 30796662147780699), (0,
    461542918125), (0, 38419886), (0, 2782)], [(8146198493027, 0), (177261503, 0), (8754, 0), (1, 0)], [(0,
    1312478257), (178614, 0), (24, 0)]], 3, 4⟩, 72057594037927936, 553190807101, 91385244177, ⟨[[(11204220440962, 0),
    (14754527448, 0), (5160744, 0), (0, 748)], [(0, 8415520322), (0, 12476382), (0, 4160), (0, 5)], [(7612635, 0),
    (8252, 0), (3, 0)], [(0, 6314), (0, 7)]], 3, 4⟩, 17592186044416, 580187,
    8488856634904960689547140017479421522436951402408332666714812043429301585761663318362200648101773064110995871938092064347289933,
    lc0⟩)) (.leaf ⟨1266, 16, 4361, 303, 16, 1889, ⟨[[(1758210724134912, 0), (0, 2548729032578499), (1369477187, 0),
    (0, 1117588), (0, 49)], [(20668830283529426, 0), (0, 4021862997282), (0, 3183780), (0, 2703)], [(0,
    47816997931338), (956131540, 0), (103159, 0), (6, 0)], [(62627111105, 0), (2250017, 0), (263, 0)]], 3, 4⟩, ⟨[[(0,
    378420790427648), (0, 1146019432708912), (0, 12786431487), (0, 1266005), (0, 63)], [(0, 38839269382548858), (0,
    630918668786), (0, 53419050), (0, 3778)], [(20579361664407, 0), (429738997, 0), (20213, 0), (2, 0)], [(0,
    6176304769), (1026063, 0), (133, 0)]], 3, 4⟩, 72057594037927936, 7140661313164, 837869457766, ⟨[[(11368947236934,
    0), (24319184143, 0), (13794312, 0), (0, 2625), (6, 0)], [(0, 10959049238), (0, 26017343), (0, 13727), (0, 23)],
    [(12619530, 0), (22356, 0), (7, 0)], [(0, 13172), (0, 28)]], 3, 4⟩, 17592186044416, 2129700,
    8152030557159814505830654544108169838017258383585442738895392489154331380735216452099753353777852676255828776847353895362694668,
    lc0⟩))) (.sx (.leaf ⟨796, 16, 2826, 241, 16, 1449, ⟨[[(0, 21908400000434176), (0, 3081390212501527), (0,
    1908733167), (0, 5880181), (0, 508)], [(14217873348850310, 0), (0, 5328230118868), (0, 46485235), (0, 18326), (0,
    2)], [(0, 35999252900593), (1001361660, 0), (203376, 0), (22, 0)], [(45824938044, 0), (3688896, 0), (810, 0)]],
    3, 4⟩, ⟨[[(9965250529492992, 0), (0, 1743798925330348), (0, 40546701166), (0, 7896672), (0, 786)], [(0,
    31551669814318763), (0, 1151037509948), (0, 195441573), (0, 26842), (0, 2)], [(16593122611013, 0), (464605818,
    0), (12727, 0), (4, 0)], [(0, 4690905457), (1981188, 0), (498, 0)]], 3, 4⟩, 72057594037927936, 4863334392795,
    1014309695368, ⟨[[(12085039885545, 0), (33440448008, 0), (24239213, 0), (0, 3214), (0, 4)], [(0, 18950852743),
    (0, 56644738), (0, 38396), (0, 113), (0, 2)], [(34531279, 0), (81269, 0), (0, 37)], [(0, 56721), (0, 192), (1,
    0)]], 3, 4⟩, 17592186044416, 14625009,
    10923985545727690549293074286083445957514169312771697745869325107630828137846152844134661558860479916612671055911032176950334723,
    lc0⟩) (.sy (.leaf ⟨1298, 16, 4534, 292, 16, 1871, ⟨[[(0, 15150348552896512), (0, 2649311754475770), (0,
    404915564), (0, 1268027), (0, 55)], [(19388493729819337, 0), (0, 4186918879971), (0, 7727074), (0, 3059)], [(0,
    49187043288832), (1106554379, 0), (116992, 0), (7, 0)], [(66357107232, 0), (2628057, 0), (302, 0)]], 3, 4⟩,
    ⟨[[(11037012045287424, 0), (0, 1148794842991795), (0, 14650535128), (0, 1385176), (0, 68)], [(0,
    38796695877444059), (0, 680937304908), (0, 58785248), (0, 4064)], [(20602187634927, 0), (446978808, 0), (22513,
    0), (2, 0)], [(0, 5573029797), (1154892, 0), (145, 0)]], 3, 4⟩, 72057594037927936, 7558822170918, 795945253190,
    ⟨[[(11362928303618, 0), (24787986085, 0), (14370215, 0), (0, 2849), (20, 0)], [(0, 10767810353), (0, 25835519),
    (0, 13286), (0, 8)], [(12153787, 0), (22352, 0), (6, 0)], [(0, 12194), (0, 32)]], 3, 4⟩, 17592186044416, 2025623,
    7837545230072673313864658062485469469343529425241520106308756629044784883881154921401343738712242104815237170057079859929370907,
    lc0⟩) (.sx (.leaf ⟨1651, 16, 5863, 455, 16, 2937, ⟨[[(0, 2157759327797248), (0, 3370519053526321), (0,
    2915288067), (0, 1741681), (0, 75)], [(11849837650599802, 0), (0, 2729702081374), (0, 9765660), (0, 2248)], [(0,
    16410074790552), (367089562, 0), (37864, 0), (2, 0)], [(11216183817, 0), (485901, 0), (55, 0)]], 3, 4⟩, ⟨[[(0,
    2463171659055104), (0, 1815780498604309), (0, 25359841651), (0, 2324308), (0, 112)], [(0, 31075534152146712), (0,
    590672797684), (0, 51517489), (0, 3488)], [(8237633245494, 0), (168524750, 0), (7914, 0), (1, 0)], [(0,
    1002915403), (260284, 0), (32, 0)]], 3, 4⟩, 72057594037927936, 633083329275, 100685502769, ⟨[[(11542962626307,
    0), (16107221298, 0), (5954717, 0), (0, 782), (5, 0)], [(0, 8694893429), (0, 13190374), (0, 4224), (1, 0)],
    [(7716802, 0), (9398, 0), (1, 0)], [(0, 5973), (0, 12)]], 3, 4⟩, 17592186044416, 529383,
    9077848607537538275386258393361644561764540386472504567650261721468154992380237535723029435349441506308321625971318345267955143,
    lc0⟩) (.leaf ⟨1657, 16, 5862, 440, 16, 2959, ⟨[[(14692798146887680, 0), (0, 3483889025647426), (0, 3254080530),
    (0, 1831665), (0, 78)], [(10528019141992507, 0), (0, 2695868915718), (0, 6297542), (0, 2045)], [(0,
    15027576750113), (427007507, 0), (44650, 0), (3, 0)], [(10685438718, 0), (465257, 0), (53, 0)]], 3, 4⟩,
    ⟨[[(23589162495123456, 0), (0, 1854057144509970), (0, 27713334219), (0, 2488071), (0, 119)], [(0,
    30616403936335165), (0, 579460990748), (0, 51066555), (0, 3452)], [(8175805194915, 0), (202330588, 0), (11926,
    0), (1, 0)], [(0, 953392734), (253873, 0), (31, 0)]], 3, 4⟩, 72057594037927936, 638030828049, 78372425959,
    ⟨[[(11197829324213, 0), (15689666428, 0), (5891732, 0), (0, 1102), (5, 0)], [(0, 8362600512), (0, 12824132), (0,
    4276), (4, 0)], [(7440518, 0), (9030, 0), (3, 0)], [(0, 5677), (0, 12)]], 3, 4⟩, 17592186044416, 500562,
    10735563173252708985921233480895433600607614635686443622303624505319608616909919275046929776045094365296843131892065521504902669,
    lc0⟩))))
theorem c86 : checkR job con0 true ⟨7, 9, 7, 9, 13, 17⟩ 1 28336 t86 339 21 640 31749 251 32000 = true := by decide +kernel

def t87 : CTree :=
  .sy (.sy (.out ⟨213, 16, 571, 3388, 16, 4599, ⟨[[(6377341607960576, 0), (0, 900321275934005), (12389432943, 0)],
    [(38520281836110220, 0), (0, 5102234805284), (100430227, 0)], [(0, 71508363527373), (0, 1718174320), (248024,
    0)]], 2, 2⟩, ⟨[[(0, 8105334103244800), (0, 4342357979800363), (77240043042, 0)]], 2, 2⟩, 72057594037927936,
    3704059902998792, 21823473962529, ⟨[], 0, 0⟩, 0, 0, 0, lc0⟩ 1 1 407679363988) (.sx (.out ⟨351, 16, 995, 3419, 16,
    4682, ⟨[[(8889393753645056, 0), (0, 1456173386701587), (19348274583, 0)], [(32787568618510037, 0), (0,
    4333090170722), (80915741, 0)], [(0, 36918053483508), (0, 581191211), (106715, 0)]], 2, 2⟩, ⟨[[(0,
    35668378198966272), (0, 4342822687143679), (76564635446, 0)]], 2, 2⟩, 72057594037927936, 852550320038504,
    21440336443457, ⟨[], 0, 0⟩, 0, 0, 0, lc0⟩ 1 1 399129286338) (.sy (.out ⟨466, 16, 1245, 6838, 16, 9344, ⟨[[(0,
    13236850182877184), (0, 1029177650767698), (7218188255, 0)], [(38399091802200174, 0), (0, 2758873174331),
    (28366034, 0)], [(0, 32978403792405), (0, 467691510), (35438, 0)]], 2, 2⟩, ⟨[[(0, 33443829585739776), (0,
    4352787626240298), (38455244907, 0)]], 2, 2⟩, 72057594037927936, 918815233554793, 5384296488931, ⟨[], 0, 0⟩, 0,
    0, 0, lc0⟩ 1 1 234293237996) (.out ⟨472, 16, 1281, 6868, 16, 9427, ⟨[[(0, 4732866287439872), (0,
    1051524137167936), (7339484028, 0)], [(38091755906881719, 0), (0, 2809493465368), (28891437, 0)], [(0,
    34164318404824), (0, 444247040), (37206, 0)]], 2, 2⟩, ⟨[[(0, 13469974189047808), (0, 4352757741270791),
    (38285186786, 0)]], 2, 2⟩, 72057594037927936, 941290986351196, 5336764813245, ⟨[], 0, 0⟩, 0, 0, 0, lc0⟩ 1 1
    187857744215)))) (.sx (.sy (.out ⟨357, 16, 1043, 3449, 16, 4765, ⟨[[(35906428459204608, 0), (0,
    1506304124595026), (19786698604, 0)], [(32110319705840134, 0), (0, 4458100534018), (82544630, 0)], [(0,
    38976416905862), (0, 495344363), (115303, 0)]], 2, 2⟩, ⟨[[(0, 29882865891311616), (0, 4342602781589957),
    (75889114195, 0)]], 2, 2⟩, 72057594037927936, 891265588496002, 21063919329403, ⟨[], 0, 0⟩, 0, 0, 0, lc0⟩ 1 1
    301634747041) (.sy (.out ⟨447, 16, 1334, 6959, 16, 9679, ⟨[[(16178739694604288, 0), (0, 953849674315441),
    (6200370376, 0)], [(38937276706098603, 0), (0, 2811635776002), (25828605, 0)], [(0, 50068358262391), (0,
    260361179), (38115, 0)]], 2, 2⟩, ⟨[[(15736809578168320, 0), (0, 4353028530799040), (37787034009, 0)]], 2, 2⟩,
    72057594037927936, 1126796747463835, 5198314509782, ⟨[], 0, 0⟩, 0, 0, 0, lc0⟩ 1 1 226748378903) (.out ⟨453, 16,
    1373, 6989, 16, 9763, ⟨[[(34739547595415552, 0), (0, 975374428450379), (6289702746, 0)], [(38629583487441012, 0),
    (0, 2867345110344), (26183111, 0)], [(0, 51656674274860), (0, 228051936), (40329, 0)]], 2, 2⟩,
    ⟨[[(11388827887599616, 0), (0, 4352787906405009), (37621005060, 0)]], 2, 2⟩, 72057594037927936, 1158458208019713,
    5152970141942, ⟨[], 0, 0⟩, 0, 0, 0, lc0⟩ 1 1 186280632428))) (.sx (.sy (.sy (.out ⟨762, 16, 2125, 6898, 16, 9510,
    ⟨[[(0, 14057492205060096), (0, 1683821373695282), (11535602886, 0)], [(31056968503119202, 0), (0, 2299497960216),
    (23066905, 0)], [(0, 15574313409185), (0, 157473511), (15540, 0)]], 2, 2⟩, ⟨[[(0, 12677593316065280), (0,
    4352560147820052), (38115155198, 0)]], 2, 2⟩, 72057594037927936, 200862173816217, 5289655601088, ⟨[], 0, 0⟩, 0,
    0, 0, lc0⟩ 1 1 185751088662) (.out ⟨769, 16, 2179, 6928, 16, 9594, ⟨[[(12698366037426176, 0), (0,
    1714809700747180), (11677471825, 0)], [(30668437946802450, 0), (0, 2334313559273), (23396682, 0)], [(0,
    16047094092217), (0, 145264019), (16372, 0)]], 2, 2⟩, ⟨[[(21221467493957632, 0), (0, 4352652928692630),
    (37949143645, 0)]], 2, 2⟩, 72057594037927936, 205286509810875, 5243515167787, ⟨[], 0, 0⟩, 0, 0, 0, lc0⟩ 1 1
    143133764904)) (.sy (.leaf ⟨943, 16, 2280, 498, 16, 2234, ⟨[[(5696340450942976, 0), (0, 1782108046786255),
    (12054501343, 0), (0, 111323), (0, 2)], [(30869972905026146, 0), (0, 2418066773030), (24216210, 0), (0, 175)],
    [(0, 16862842860486), (0, 134529258), (17682, 0)], [(22653904666, 0), (0, 164508), (6, 0)]], 3, 4⟩,
    ⟨[[(29904971628883968, 0), (0, 1338994847649951), (3638893920, 0), (0, 154529), (0, 7)], [(0, 36753358852594286),
    (0, 204313730295), (1147453, 0), (0, 325)], [(16395017507734, 0), (300920278, 0), (2838, 0)], [(0, 8030858278),
    (0, 163965), (10, 0)]], 3, 4⟩, 72057594037927936, 1965395178671, 682978364429, ⟨[[(9627043889219, 0),
    (14007145214, 0), (4645787, 0), (0, 3478), (13, 0)], [(0, 10534037561), (0, 20464534), (4727, 0), (85, 0)],
    [(14581072, 0), (24123, 0), (0, 36)], [(0, 19353), (0, 27)]], 3, 4⟩, 17592186044416, 4054491,
    9381170453359787362353783832473763943424128012742202876712371136899094641990767030020848343535766437883702651356345029941022390,
    lc0⟩) (.leaf ⟨955, 16, 2339, 489, 16, 2232, ⟨[[(0, 15150734071439360), (0, 1815895747245350), (12190468813, 0),
    (0, 119651), (0, 3)], [(30429757964040936, 0), (0, 2455832441860), (24574198, 0), (0, 177)], [(0,
    17363861758122), (0, 119470058), (18812, 0)], [(23157122527, 0), (0, 161768), (7, 0)]], 3, 4⟩, ⟨[[(0,
    24406870459088896), (0, 1334266574192966), (3391211976, 0), (0, 170694), (0, 9)], [(0, 36822682512815543), (0,
    203237023458), (621694, 0), (0, 373)], [(16532038514211, 0), (303844969, 0), (3544, 0), (1, 0)], [(0,
    8103251871), (0, 153044), (11, 0)]], 3, 4⟩, 72057594037927936, 2049244101228, 687421762160, ⟨[[(9634822693598,
    0), (14191323212, 0), (4712079, 0), (0, 4819), (6, 0)], [(0, 10444320335), (0, 20621792), (3302, 0), (79, 0)],
    [(14336374, 0), (24443, 0), (0, 27)], [(0, 18868), (0, 28)]], 3, 4⟩, 17592186044416, 3819332,
    7243166649628162703078752002901167766326381220932924653451004654335901914679408288296813206435287891116211708715026211957575106,
    lc0⟩))) (.leaf ⟨414, 16, 977, 255, 16, 1181, ⟨[[(34420250783203328, 0), (0, 3240413029340779), (90440530444, 0),
    (0, 3173795), (0, 228)], [(12933336260148136, 0), (0, 4187865313317), (177151486, 0), (0, 3915)], [(0,
    6027841645008), (0, 287706558), (123765, 0), (12, 0)], [(9069060027, 0), (0, 379769), (30, 0)]], 3, 4⟩, ⟨[[(0,
    10702900346429440), (0, 2852462999223629), (32275068637, 0), (0, 5390651), (0, 1031)], [(0, 18699578669047531),
    (0, 382023821779), (13893510, 0), (0, 8932), (0, 3)], [(8113554232864, 0), (589822741, 0), (30607, 0), (16, 0)],
    [(0, 3936862656), (0, 337190), (66, 0)]], 3, 4⟩, 72057594037927936, 888687914447, 702201079439,
    ⟨[[(9180185432304, 0), (25340937929, 0), (17342987, 0), (0, 19582), (204, 0)], [(0, 22369032565), (0, 85838713),
    (4108, 0), (782, 0), (7, 0)], [(70573828, 0), (237779, 0), (0, 320), (0, 9)], [(0, 213439), (0, 618), (2, 0)]],
    3, 4⟩, 17592186044416, 121145433,
    6790260126476495647214618994014618800785637671949324778520941347123722008785307053036240050894669603536518962601460996130385113,
    lc0⟩)))
theorem c87 : checkR job con0 true ⟨7, 9, 7, 9, 13, 17⟩ 1 28336 t87 201 21 320 14243 251 16000 = true := by decide +kernel

def t88 : CTree :=
  .sy (.sx (.sy (.leaf ⟨455, 16, 974, 264, 16, 1179, ⟨[[(12834577018298368, 0), (0, 1813155656907396), (26959619446,
    0), (0, 392967)], [(29925681355193545, 0), (0, 4461365129754), (99428506, 0), (0, 1074)], [(0, 16398982049576),
    (0, 1040202899), (112050, 0), (2, 0)], [(68464026879, 0), (0, 2119029), (20, 0)]], 3, 4⟩, ⟨[[(0,
    20273819077234688), (0, 1458557580285173), (10556042570, 0), (0, 501976), (0, 23)], [(0, 34977459805471817), (0,
    340325178759), (13462265, 0), (0, 688)], [(28300940763532, 0), (988082955, 0), (15044, 0), (4, 0)], [(0,
    26667915485), (0, 1444635), (51, 0)]], 3, 4⟩, 72057594037927936, 8384251611044, 4420017267298, ⟨[[(8554330511952,
    0), (22448411069, 0), (17361254, 0), (17396, 0), (501, 0)], [(0, 18073220412), (0, 69103474), (0, 7071), (333,
    0), (2, 0)], [(50989364, 0), (171531, 0), (0, 289), (0, 6)], [(0, 137827), (0, 379), (2, 0)]], 3, 4⟩,
    17592186044416, 70109033,
    5913530254512678461339831449220353430410566674695975774357345995012161223866594594329962472980906072669111010777059194467711785,
    lc0⟩) (.leaf ⟨465, 16, 1023, 253, 16, 1178, ⟨[[(0, 6598250625351680), (0, 1876255387244537), (27691978800, 0),
    (0, 417223), (0, 4)], [(29105086899759177, 0), (0, 4581769667166), (102860054, 0), (0, 953)], [(0,
    17742429870412), (0, 972221692), (122319, 0), (4, 0)], [(70796443448, 0), (0, 2203847), (23, 0)]], 3, 4⟩,
    ⟨[[(27259781119203328, 0), (0, 1447124180773518), (9748386061, 0), (0, 564823), (0, 40)], [(0,
    35115197971065277), (0, 327128981847), (12179459, 0), (0, 1014)], [(28776934144079, 0), (1006108232, 0), (22994,
    0), (6, 0)], [(0, 27356205964), (0, 1386986), (62, 0)]], 3, 4⟩, 72057594037927936, 9220945136952, 4506161160669,
    ⟨[[(8534551478709, 0), (22969359700, 0), (17321317, 0), (0, 4670), (329, 0)], [(0, 17706894646), (0, 69903033),
    (0, 12133), (347, 0), (2, 0)], [(49283867, 0), (174221, 0), (0, 161), (0, 4)], [(0, 131559), (0, 397), (1, 0)]],
    3, 4⟩, 17592186044416, 62602757,
    4222230236805722488863263499649269238705690542489957774993280391448125583790383989085182382114484735310289884674182177698367300,
    lc0⟩)) (.sy (.leaf ⟨463, 16, 954, 255, 16, 1230, ⟨[[(0, 29524402668208128), (0, 1961416931267969), (30690958458,
    0), (0, 425101), (4, 0)], [(28306509547754350, 0), (0, 4467428810644), (106674202, 0), (0, 866)], [(0,
    7966518520766), (0, 1319767413), (110965, 0), (2, 0)], [(61927064010, 0), (0, 2697661)]], 3, 4⟩, ⟨[[(0,
    32256070310471680), (0, 1534852511695809), (11633523385, 0), (0, 545273), (0, 29)], [(0, 34151102710796325), (0,
    276140284048), (15583980, 0), (0, 303)], [(26248978150646, 0), (851057047, 0), (20264, 0), (5, 0)], [(0,
    24262640980), (0, 1356167), (20, 0)]], 3, 4⟩, 72057594037927936, 4841921838663, 3993382887674, ⟨[[(7839599080675,
    0), (19761749719, 0), (15487170, 0), (0, 7224), (222, 0)], [(0, 15474191415), (0, 61233370), (0, 23310), (131,
    0)], [(43005325, 0), (157163, 0), (0, 43), (0, 2)], [(0, 115007), (0, 363)]], 3, 4⟩, 17592186044416, 53412466,
    2776717889562527318127139500645199314167408924490780568787963140535378786583343585712065885535766675204994658378725965145043319,
    lc0⟩) (.leaf ⟨472, 16, 1003, 244, 16, 1230, ⟨[[(6907423175245824, 0), (0, 2030100383182150), (31598873449, 0),
    (0, 441810), (1, 0)], [(27430726281365586, 0), (0, 4584907524435), (110985617, 0), (0, 630)], [(0,
    9042545910751), (0, 1268516035), (120768, 0), (3, 0)], [(63683320713, 0), (0, 2840440), (0, 9)]], 3, 4⟩, ⟨[[(0,
    7257859973842944), (0, 1523601703895255), (10759149230, 0), (0, 622282), (0, 48)], [(0, 34285841514190074), (0,
    260765532307), (14998153, 0), (0, 482)], [(26682019441113, 0), (875730280, 0), (29377, 0), (7, 0)], [(0,
    24938320639), (0, 1335631), (21, 0)]], 3, 4⟩, 72057594037927936, 5489179569824, 4051995212911, ⟨[[(7840705626116,
    0), (20302554605, 0), (16252033, 0), (0, 17061), (135, 0)], [(0, 15250020231), (0, 62140922), (0, 26132), (148,
    0)], [(41904335, 0), (157519, 0), (0, 1), (0, 1)], [(0, 110881), (0, 359)]], 3, 4⟩, 17592186044416, 48115890,
    3461503652158255569585350246142548563440488615477104139968525328281162618132047599983955131545424763383764792452537906357234064,
    lc0⟩))) (.sx (.sy (.leaf ⟨475, 16, 1076, 243, 16, 1177, ⟨[[(25023559942746112, 0), (0, 1944552730279394),
    (28456350007, 0), (0, 453075), (0, 10)], [(28220908776762295, 0), (0, 4711226510777), (106841008, 0), (0, 782)],
    [(0, 19141997858709), (0, 889973583), (135983, 0), (6, 0)], [(73306787115, 0), (0, 2293229), (26, 0)]], 3, 4⟩,
    ⟨[[(8877409633292288, 0), (0, 1436566168854369), (8819297077, 0), (0, 665520), (0, 61)], [(0, 35246541696907276),
    (0, 315496545972), (10347600, 0), (0, 1421)], [(29263782995330, 0), (1033536245, 0), (33911, 0), (8, 0)], [(0,
    28011919558), (0, 1316808), (76, 0)]], 3, 4⟩, 72057594037927936, 10158095283274, 4566878081264,
    ⟨[[(8548188116720, 0), (23612378160, 0), (17928719, 0), (0, 19637), (198, 0)], [(0, 17465430233), (0, 70916091),
    (0, 18444), (334, 0), (3, 0)], [(47975446, 0), (175305, 0), (0, 62), (0, 3)], [(0, 126446), (0, 398)]], 3, 4⟩,
    17592186044416, 57519582,
    4668136926462583292260198548460172042913881670329666740694254816672604697434101841865120320465582453923238705859778000256998672,
    lc0⟩) (.leaf ⟨486, 16, 1133, 233, 16, 1176, ⟨[[(26487952903557120, 0), (0, 2017846425848684), (29226652115, 0),
    (0, 504037), (0, 17)], [(27253816336137707, 0), (0, 4848403669680), (111463524, 0), (0, 546)], [(0,
    20589528134080), (0, 788143702), (154190, 0), (9, 0)], [(75984978882, 0), (0, 2386295), (30, 0)]], 3, 4⟩, ⟨[[(0,
    3842201261066240), (0, 1427035283312754), (7705692879, 0), (0, 812495), (0, 87)], [(0, 35372429366828824), (0,
    306041439172), (7836354, 0), (0, 1921)], [(29766991853080, 0), (1073645856, 0), (48428, 0), (11, 0)], [(0,
    28628163927), (0, 1231496), (92, 0)]], 3, 4⟩, 72057594037927936, 11217704123807, 4588323912119,
    ⟨[[(8552752577022, 0), (24255774016, 0), (19001926, 0), (0, 29665), (95, 0)], [(0, 17176434423), (0, 71686778),
    (0, 25981), (288, 0), (3, 0)], [(46504319, 0), (174057, 0), (19, 0), (0, 2)], [(0, 120859), (0, 385)]], 3, 4⟩,
    17592186044416, 51906392,
    4645535601202464386236445471007038791788512377474713484777548837322811698259986659421983064078118715750292353794088513359438400,
    lc0⟩)) (.sy (.leaf ⟨482, 16, 1056, 233, 16, 1230, ⟨[[(19260955927359488, 0), (0, 2104323814670664), (32567756003,
    0), (0, 466889), (0, 3)], [(26486335212689859, 0), (0, 4710277447005), (116116462, 0), (0, 299)], [(0,
    10158272469295), (0, 1204815412), (133692, 0), (5, 0)], [(65543933616, 0), (0, 3005549), (0, 21)]], 3, 4⟩,
    ⟨[[(23156906255403008, 0), (0, 1513297148869501), (9737895470, 0), (0, 741789), (0, 72)], [(0,
    34413033947809914), (0, 246126194570), (14106609, 0), (0, 711)], [(27130004212976, 0), (911139569, 0), (41759,
    0), (9, 0)], [(0, 25603460302), (0, 1314174), (22, 0)]], 3, 4⟩, 72057594037927936, 6219841291265, 4086689722726,
    ⟨[[(7834540852841, 0), (20843864686, 0), (17339420, 0), (0, 23589), (67, 0)], [(0, 14986066927), (0, 62878156),
    (0, 30042), (143, 0), (1, 0)], [(40669451, 0), (156394, 0), (33, 0), (0, 1)], [(0, 106390), (0, 346)]], 3, 4⟩,
    17592186044416, 45489291,
    3393025984125140728856256458904257155842820406089818296122945724740792193591406062147426951262903089855597322666774805719434147,
    lc0⟩) (.leaf ⟨493, 16, 1113, 223, 16, 1229, ⟨[[(0, 2410077584117760), (0, 2183820643028636), (33577647561, 0),
    (0, 502946), (0, 8)], [(25454619093835398, 0), (0, 4841776893388), (122252839, 0), (156, 0)], [(0,
    11307779935940), (0, 1123678794), (150835, 0), (8, 0)], [(67484636386, 0), (0, 3198233), (0, 39)]], 3, 4⟩, ⟨[[(0,
    26640112999804928), (0, 1502897857765939), (8491971182, 0), (0, 912387), (0, 100)], [(0, 34505056978777758), (0,
    232379195453), (12819379, 0), (0, 994)], [(27576764367167, 0), (960130919, 0), (58070, 0), (12, 0)], [(0,
    26236245632), (0, 1290721), (23, 0)]], 3, 4⟩, 72057594037927936, 7054620884393, 4076571867945, ⟨[[(7844601091219,
    0), (21433277839, 0), (18589459, 0), (0, 27307), (20, 0)], [(0, 14756406616), (0, 63523759), (0, 33740), (127,
    0), (1, 0)], [(39502739, 0), (154088, 0), (56, 0)], [(0, 102055), (0, 327)]], 3, 4⟩, 17592186044416, 41855611,
    3873678804984712744860157739517864980542249427385151855749459707316413397825713914003397130073755926159265943909341763940410174,
    lc0⟩)))
theorem c88 : checkR job con0 true ⟨7, 9, 7, 9, 13, 17⟩ 1 28336 t88 243 21 320 14243 251 16000 = true := by decide +kernel

def t89 : CTree :=
  .sx (.sx (.sy (.out ⟨707, 16, 2231, 3510, 16, 4935, ⟨[[(9071579650777088, 0), (0, 2994723643461356), (37370927607,
    0)], [(15521770195275179, 0), (0, 2293809074389), (39428536, 0)], [(0, 5863824551553), (0, 32071977), (16108,
    0)]], 2, 2⟩, ⟨[[(2512975642853376, 0), (0, 4343769523567587), (74600606653, 0)]], 2, 2⟩, 72057594037927936,
    44641451769039, 20347697660487, ⟨[], 0, 0⟩, 0, 0, 0, lc0⟩ 1 1 183838733535) (.sy (.out ⟨1098, 16, 3543, 7080, 16,
    10019, ⟨[[(17071935305990144, 0), (0, 2355870624351737), (14446366046, 0)], [(23287061989676955, 0), (0,
    1798150559058), (15179533, 0)], [(0, 9327696813946), (0, 15596049), (6727, 0)]], 2, 2⟩, ⟨[[(19093797377474560,
    0), (0, 4352870217528879), (37138312708, 0)]], 2, 2⟩, 72057594037927936, 51809951801189, 5021353879268, ⟨[], 0,
    0⟩, 0, 0, 0, lc0⟩ 1 1 126146463519) (.out ⟨1104, 16, 3617, 7111, 16, 10105, ⟨[[(33931996548022272, 0), (0,
    2390412896048706), (14457549184, 0)], [(22855793057800472, 0), (0, 1820320527767), (15150830, 0)], [(0,
    9528757202962), (0, 8891387), (7145, 0)]], 2, 2⟩, ⟨[[(0, 29903610746306560), (0, 4352867219948851), (36979901451,
    0)]], 2, 2⟩, 72057594037927936, 53153816168314, 4978566532591, ⟨[], 0, 0⟩, 0, 0, 0, lc0⟩ 1 1 93293898507))) (.sy
    (.sy (.out ⟨1097, 16, 3391, 7020, 16, 9848, ⟨[[(0, 34061637160271872), (0, 2356649412618954), (14963139439, 0)],
    [(23308725362678811, 0), (0, 1753122225525), (15644151, 0)], [(0, 8289145729140), (0, 28205783), (6300, 0)]], 2,
    2⟩, ⟨[[(0, 32294720072581120), (0, 4352830954675709), (37458851791, 0)]], 2, 2⟩, 72057594037927936,
    47464681930460, 5108546864542, ⟨[], 0, 0⟩, 0, 0, 0, lc0⟩ 1 1 162971607068) (.out ⟨1102, 16, 3461, 7050, 16, 9934,
    ⟨[[(33076880539680768, 0), (0, 2390090497041977), (15018004093, 0)], [(22895650585704622, 0), (0, 1773420157468),
    (15687450, 0)], [(0, 8473070322310), (0, 22220677), (6659, 0)]], 2, 2⟩, ⟨[[(28379097881837568, 0), (0,
    4353150396857665), (37300461821, 0)]], 2, 2⟩, 72057594037927936, 48591248832522, 5065017708748, ⟨[], 0, 0⟩, 0, 0,
    0, lc0⟩ 1 1 124844548355)) (.sy (.sy (.out ⟨1542, 16, 4896, 14161, 16, 20017, ⟨[[(0, 4596040433909760), (0,
    1682589592466296), (5239832118, 0)], [(31447246251874688, 0), (0, 1246060338901), (5470899, 0)], [(0,
    11996662000807), (0, 12119000), (2425, 0)]], 2, 2⟩, ⟨[[(0, 10635315978698752), (0, 4357635296161729),
    (18609410095, 0)]], 2, 2⟩, 72057594037927936, 65075355038437, 1258059794348, ⟨[], 0, 0⟩, 0, 0, 0, lc0⟩ 1 1
    97403810402) (.out ⟨1551, 16, 4961, 14191, 16, 20103, ⟨[[(0, 32565766739345408), (0, 1699622382417128),
    (5259052354, 0)], [(31232310118995413, 0), (0, 1257064300195), (5489950, 0)], [(0, 12161472486451), (0, 9787396),
    (2509, 0)]], 2, 2⟩, ⟨[[(19385778287017984, 0), (0, 4357653262184485), (18569677038, 0)]], 2, 2⟩,
    72057594037927936, 65948970426932, 1252685410092, ⟨[], 0, 0⟩, 0, 0, 0, lc0⟩ 1 1 78576923334)) (.sy (.out ⟨1560,
    16, 5028, 14222, 16, 20190, ⟨[[(0, 35543537328537600), (0, 1717251360360077), (5277174367, 0)],
    [(31015941892126842, 0), (0, 1268482853013), (5508444, 0)], [(0, 12330051463209), (0, 7338368), (2600, 0)]], 2,
    2⟩, ⟨[[(18750913914339328, 0), (0, 4357847203567360), (18530861913, 0)]], 2, 2⟩, 72057594037927936,
    66855824996641, 1247395564172, ⟨[], 0, 0⟩, 0, 0, 0, lc0⟩ 1 1 61611190394) (.leaf ⟨1943, 16, 5198, 932, 16, 4257,
    ⟨[[(34120648101363712, 0), (0, 1769863659264480), (5398831373, 0), (0, 38414), (0, 1)], [(31407733236436096, 0),
    (0, 1305683125098), (5635676, 0), (0, 40)], [(0, 12750064532681), (0, 4856646), (2751, 0)], [(7343250199, 0), (0,
    366), (1, 0)]], 3, 4⟩, ⟨[[(3483307956420608, 0), (0, 1244996260286211), (1056587789, 0), (0, 53955), (0, 2)],
    [(0, 38076350620228931), (0, 122252291030), (0, 812266), (0, 89)], [(9139987546020, 0), (82900565, 0), (392, 0)],
    [(0, 2267905923), (0, 11567), (1, 0)]], 3, 4⟩, 72057594037927936, 365698746371, 104177133283, ⟨[[(10576488081653,
    0), (8403487223, 0), (1168693, 0), (0, 2051), (0, 3)], [(0, 5929102363), (0, 5944175), (1085, 0), (11, 0)],
    [(4056345, 0), (3480, 0), (0, 2)], [(0, 2660), (0, 2)]], 3, 4⟩, 17592186044416, 296016,
    9475800405840648377490092222510722427497534966376751817054413154648542448501821708506852477769077728384047645115400919358994331,
    lc0⟩))))) (.sy (.sx (.sy (.out ⟨1106, 16, 3378, 7020, 16, 9848, ⟨[[(0, 24492742876102656), (0, 2421013956749422),
    (15571533029, 0)], [(22550709369022464, 0), (0, 1748818040367), (16122099, 0)], [(0, 7667003980788), (0,
    29556476), (6529, 0)]], 2, 2⟩, ⟨[[(0, 32294720072581120), (0, 4352830954675709), (37458851791, 0)]], 2, 2⟩,
    72057594037927936, 45621150020484, 5108546864542, ⟨[], 0, 0⟩, 0, 0, 0, lc0⟩ 1 1 123878818178) (.sy (.out ⟨1553,
    16, 4801, 14100, 16, 19846, ⟨[[(35304644725243904, 0), (0, 1712158105835064), (5464312249, 0)],
    [(31117750933111564, 0), (0, 1234181680765), (5661332, 0)], [(0, 10911257158228), (0, 17460257), (2387, 0)]], 2,
    2⟩, ⟨[[(24262614199697408, 0), (0, 4357697273315565), (18689809415, 0)]], 2, 2⟩, 72057594037927936,
    61299136534047, 1268941625435, ⟨[], 0, 0⟩, 0, 0, 0, lc0⟩ 1 1 96209884101) (.out ⟨1562, 16, 4865, 14131, 16,
    19932, ⟨[[(9449074694406144, 0), (0, 1729446846383402), (5489037105, 0)], [(30906191414817883, 0), (0,
    1244897409550), (5690558, 0)], [(0, 11064978415778), (0, 15239331), (2469, 0)]], 2, 2⟩, ⟨[[(1012068415045632, 0),
    (0, 4357795581711859), (18650076742, 0)]], 2, 2⟩, 72057594037927936, 62096169771945, 1263520756019, ⟨[], 0, 0⟩,
    0, 0, 0, lc0⟩ 1 1 78034613461))) (.sy (.leaf ⟨1362, 16, 3429, 754, 16, 3395, ⟨[[(12007770256080896, 0), (0,
    2532179065171132), (16505812679, 0), (0, 175999), (0, 5)], [(22261767714508730, 0), (0, 1777827698969),
    (16932386, 0), (0, 153)], [(0, 7206874373670), (0, 32172751), (6866, 0)], [(4481060932, 0), (0, 19958), (2, 0)]],
    3, 4⟩, ⟨[[(4891030120448000, 0), (0, 2014327174404397), (4750698769, 0), (0, 267755), (0, 14)], [(0,
    28900523098669221), (0, 169388975868), (0, 164240), (0, 351)], [(6646793029077, 0), (122218029, 0), (1171, 0)],
    [(0, 1640981866), (0, 28016), (3, 0)]], 3, 4⟩, 72057594037927936, 209240807015, 76849016664, ⟨[[(10014930784374,
    0), (9732848411, 0), (1928623, 0), (0, 2072), (0, 1)], [(0, 7759283824), (0, 9807525), (2062, 0), (22, 0)],
    [(7485114, 0), (8029, 0), (0, 8)], [(0, 6926), (0, 6)]], 3, 4⟩, 17592186044416, 858935,
    9853659517461198265679657921436209532864413456087294603850939077886688532833368650614824565649059037398100172271192111951509644,
    lc0⟩) (.leaf ⟨1373, 16, 3501, 740, 16, 3393, ⟨[[(0, 13260909136297984), (0, 2568566969244095), (16573478742, 0),
    (0, 190993), (0, 6)], [(21822334114086391, 0), (0, 1797919427907), (17049937, 0), (0, 160)], [(0, 7372898614424),
    (0, 25662188), (7312, 0)], [(4565410483, 0), (0, 18388), (2, 0)]], 3, 4⟩, ⟨[[(0, 27747124722679808), (0,
    2008583575416761), (4321788321, 0), (0, 299128), (0, 17)], [(0, 28968568128765038), (0, 169730963745), (0,
    728131), (0, 399)], [(6704513881997, 0), (123467506, 0), (1469, 0)], [(0, 1653356854), (0, 25101), (3, 0)]], 3,
    4⟩, 72057594037927936, 217072591455, 75813018454, ⟨[[(10016947249929, 0), (9857491553, 0), (1991137, 0), (0,
    2357), (0, 2)], [(0, 7724199715), (0, 9938529), (1408, 0), (20, 0)], [(7424716, 0), (8230, 0), (0, 6)], [(0,
    6843), (0, 7)]], 3, 4⟩, 17592186044416, 810064,
    6495729613067600529933420254855752523813332479229327407687563062582189336363686219415256421934887098494544760085909664985941450,
    lc0⟩))) (.leaf ⟨684, 16, 1787, 360, 16, 1680, ⟨[[(1168013315899392, 0), (0, 2558994640628512), (32203692946, 0),
    (0, 848242), (0, 61)], [(21228048591684962, 0), (0, 3617766864432), (66790365, 0), (0, 1441)], [(0,
    15675725569540), (0, 54764551), (62839, 0), (4, 0)], [(18977154031, 0), (0, 96723), (44, 0)]], 3, 4⟩,
    ⟨[[(3841376784867328, 0), (0, 1979514479684948), (7170912285, 0), (0, 1371484), (0, 163)], [(0,
    29098931021606833), (0, 350305520088), (0, 7128545), (0, 3895)], [(13674928018336, 0), (504400874, 0), (13998,
    0), (4, 0)], [(0, 6739080758), (0, 161262), (59, 0)]], 3, 4⟩, 72057594037927936, 1893052370343, 654533563603,
    ⟨[[(10148241304595, 0), (20484094395, 0), (8376367, 0), (0, 23588), (0, 71)], [(0, 15870117246), (0, 41699255),
    (7582, 0), (330, 0), (3, 0)], [(30809018, 0), (70265, 0), (0, 65), (0, 2)], [(0, 57306), (0, 116)]], 3, 4⟩,
    17592186044416, 14729064,
    9019570212323115680174882265915794657593092962511731143818283339299034306934548971815876490477232805605937198424027272808219115,
    lc0⟩))
theorem c89 : checkR job con0 true ⟨7, 9, 7, 9, 13, 17⟩ 1 28336 t89 381 21 640 29239 251 32000 = true := by decide +kernel

def t90 : CTree :=
  .sy (.sx (.leaf ⟨679, 16, 1696, 365, 16, 1714, ⟨[[(0, 27096010993926144), (0, 2607077314763044), (34541270879, 0),
    (0, 752804), (0, 44)], [(20733672122667941, 0), (0, 3508195171080), (70120842, 0), (0, 1014)], [(0,
    12647806457727), (0, 130871241), (58149, 0), (4, 0)], [(16706073242, 0), (0, 216728), (26, 0)]], 3, 4⟩, ⟨[[(0,
    31283442429956096), (0, 2041849932586682), (9131569723, 0), (0, 1234517), (0, 139)], [(0, 28394295567169688), (0,
    311747439424), (0, 962994), (0, 2804)], [(12872716245596, 0), (476269751, 0), (14776, 0), (4, 0)], [(0,
    6305929391), (0, 206501), (41, 0)]], 3, 4⟩, 72057594037927936, 1552804152842, 583381832768, ⟨[[(9635103643198,
    0), (18819982614, 0), (8313940, 0), (0, 13963), (0, 5)], [(0, 14758396989), (0, 38846902), (2374, 0), (213, 0),
    (2, 0)], [(28679587, 0), (66040, 0), (0, 48), (0, 1)], [(0, 53414), (0, 108)]], 3, 4⟩, 17592186044416, 13447196,
    5333927759856885603980167921003269933589428284215004841593644583172518010572370903320934759100357715103607175803281376601240127,
    lc0⟩) (.leaf ⟨681, 16, 1673, 354, 16, 1744, ⟨[[(3834845703634944, 0), (0, 2717313106924830), (37080942914, 0),
    (0, 778136), (0, 42)], [(19489536690115075, 0), (0, 3472749558445), (74111982, 0), (0, 685)], [(0,
    10476233214603), (0, 161562561), (60156, 0), (4, 0)], [(15293196377, 0), (0, 301690), (18, 0)]], 3, 4⟩,
    ⟨[[(30351230338977792, 0), (0, 2090071426507041), (9279720443, 0), (0, 1368715), (0, 156)], [(0,
    27824219215371861), (0, 277597838767), (490500, 0), (0, 2498)], [(12317190011035, 0), (458491260, 0), (19803, 0),
    (5, 0)], [(0, 5985633590), (0, 205558), (34, 0)]], 3, 4⟩, 72057594037927936, 1351898318961, 535467700855,
    ⟨[[(9159311481389, 0), (17780443320, 0), (8644876, 0), (0, 11610), (4, 0)], [(0, 13673754573), (0, 37154983), (0,
    6081), (109, 0), (1, 0)], [(26571034, 0), (63850, 0), (0, 1), (0, 1)], [(0, 49487), (0, 102)]], 3, 4⟩,
    17592186044416, 12178106,
    4574137691117680580129691939986369885752221239112871650519454521557161297389100451457671282347529354821945273441499301950161965,
    lc0⟩)) (.leaf ⟨496, 16, 1262, 223, 16, 1116, ⟨[[(0, 28639260158476288), (0, 1968327951162094), (25897520377, 0),
    (0, 650237), (0, 43)], [(27499767235640094, 0), (0, 5122031013207), (106184572, 0), (0, 1181)], [(0,
    34743054324593), (0, 246513413), (197437, 0), (15, 0)], [(95008160768, 0), (0, 1402174), (171, 0)]], 3, 4⟩,
    ⟨[[(0, 17057948352315392), (0, 1328320005998497), (4511378829, 0), (0, 1062669), (0, 127)], [(0,
    36473677243325068), (0, 383478114170), (0, 6263004), (0, 4412), (0, 1)], [(33128057634538, 0), (1260833091, 0),
    (63471, 0), (14, 0)], [(0, 32194155902), (0, 842481), (240, 0)]], 3, 4⟩, 72057594037927936, 18175792479177,
    5330960850753, ⟨[[(9392724347814, 0), (29052059910, 0), (22039411, 0), (0, 53929), (0, 100)], [(0, 19600511145),
    (0, 83383617), (0, 26779), (590, 0), (8, 0)], [(52685546, 0), (196418, 0), (67, 0), (0, 4)], [(0, 135651), (0,
    430), (0, 1)]], 3, 4⟩, 17592186044416, 56753451,
    6302164180617256815909032350208649068504942258716329516490004681680271722744880187329025748501283016544580418439449206586315449,
    lc0⟩)
theorem c90 : checkR job con0 true ⟨7, 9, 7, 9, 13, 17⟩ 1 28336 t90 423 21 640 29239 251 32000 = true := by decide +kernel

def t91 : CTree :=
  .sx (.sx (.sy (.sx (.sy (.sy (.out ⟨1546, 16, 5120, 14282, 16, 20362, ⟨[[(0, 15824127756304384), (0,
    1684216138119147), (5033883756, 0)], [(31386119910578633, 0), (0, 1280363773644), (5265018, 0)], [(0,
    13491605050768), (0, 2423248), (2612, 0)]], 2, 2⟩, ⟨[[(32029753866452992, 0), (0, 4357683999320633),
    (18451393267, 0)]], 2, 2⟩, 72057594037927936, 71071292408057, 1236760446299, ⟨[], 0, 0⟩, 0, 0, 0, lc0⟩ 1 1
    64884605071) (.sy (.out ⟨1936, 16, 6449, 28627, 16, 40877, ⟨[[(0, 3796997044256768), (0, 1058317276331348),
    (1571568961, 0)], [(38926777321069507, 0), (0, 803869090791), (1642167, 0)], [(0, 16994305242956), (0, 276514),
    (837, 0)]], 2, 2⟩, ⟨[[(0, 30896401574002688), (0, 4360142990566776), (9216210255, 0)]], 2, 2⟩, 72057594037927936,
    88771964067357, 308216396547, ⟨[], 0, 0⟩, 0, 0, 0, lc0⟩ 1 1 54041174072) (.out ⟨1944, 16, 6502, 28657, 16, 40964,
    ⟨[[(30953689484541952, 0), (0, 1065428729978352), (1575135795, 0)], [(38840247965419355, 0), (0, 808818670296),
    (1644867, 0)], [(0, 17133896469714), (573527, 0), (854, 0)]], 2, 2⟩, ⟨[[(6501280586661888, 0), (0,
    4360164810219422), (9206487394, 0)]], 2, 2⟩, 72057594037927936, 89526102328432, 307564779954, ⟨[], 0, 0⟩, 0, 0,
    0, lc0⟩ 1 1 46599300571))) (.leaf ⟨1395, 16, 3849, 713, 16, 3285, ⟨[[(0, 35904213491744768), (0,
    2513524350465323), (14689510430, 0), (0, 250144), (0, 10)], [(22392961546720771, 0), (0, 1905496899903),
    (15316488, 0), (0, 285)], [(0, 10141551321920), (6512537, 0), (8344, 0)], [(5682186819, 0), (13509, 0), (5, 0)]],
    3, 4⟩, ⟨[[(17376535401971712, 0), (0, 1908154235413922), (2457969116, 0), (0, 384299), (0, 24)], [(0,
    30161901263123035), (0, 205465895767), (0, 4238037), (0, 692)], [(7392951036727, 0), (131810618, 0), (1129, 0)],
    [(0, 1832589801), (0, 10258), (5, 0)]], 3, 4⟩, 72057594037927936, 296810776045, 92707031984, ⟨[[(10871174596138,
    0), (11337904200, 0), (1948491, 0), (0, 5637), (0, 14)], [(0, 8624738427), (0, 11195952), (2448, 0), (36, 0)],
    [(8269914, 0), (9232, 0), (0, 7)], [(0, 7591), (0, 8)]], 3, 4⟩, 17592186044416, 1078806,
    9917546743309573545930117501847464696021126073809894577212910409675117580906354575838477358183530559766006141993251575221606373,
    lc0⟩)) (.leaf ⟨880, 16, 2391, 494, 16, 2310, ⟨[[(0, 11338688114868224), (0, 3231852095536555), (38615951556, 0),
    (0, 1247960), (0, 101)], [(13697374525075896, 0), (0, 2376702650833), (40338976, 0), (0, 1252)], [(0,
    5865602476304), (4172173, 0), (21571, 0), (2, 0)], [(3378496575, 0), (5386, 0), (10, 0)]], 3, 4⟩,
    ⟨[[(580151151349760, 0), (0, 2697143692709250), (7267996568, 0), (0, 2183902), (0, 269)], [(0,
    20745633719962435), (0, 270738848524), (0, 10187394), (0, 3578)], [(5016510217855, 0), (182425707, 0), (4556, 0),
    (1, 0)], [(0, 1237274778), (0, 16960), (14, 0)]], 3, 4⟩, 72057594037927936, 195229854265, 124563802759,
    ⟨[[(10572307687605, 0), (15723435091, 0), (4338840, 0), (0, 12798), (0, 42)], [(0, 13142354056), (0, 24821957),
    (4055, 0), (125, 0), (1, 0)], [(19963354, 0), (32655, 0), (0, 20), (0, 1)], [(0, 29026), (0, 42)]], 3, 4⟩,
    17592186044416, 5808594,
    6976736610997326432357274694763153315610322674872381213842281938642338829209558580760605059052948315207975508215174156311027918,
    lc0⟩)) (.leaf ⟨699, 16, 1958, 342, 16, 1640, ⟨[[(11635804593053696, 0), (0, 2575442733133765), (29298134949, 0),
    (0, 1183264), (0, 102)], [(20906318553093757, 0), (0, 3829688190923), (61151500, 0), (0, 2447)], [(0,
    19894280116811), (84725275, 0), (76536, 0), (6, 0)], [(22667733635, 0), (143352, 0), (90, 0)]], 3, 4⟩, ⟨[[(0,
    18533458117095424), (0, 1906658567089502), (2753953989, 0), (0, 1919985), (0, 238)], [(0, 29961366743972498), (0,
    414315241736), (0, 23417354), (0, 6443), (0, 1)], [(14734232482290, 0), (534410094, 0), (16263, 0), (4, 0)], [(0,
    7192871946), (0, 8678), (100, 0)]], 3, 4⟩, 72057594037927936, 2438241140824, 730369162343, ⟨[[(10733254342897,
    0), (22948228769, 0), (9465006, 0), (0, 38149), (0, 203)], [(0, 17014824389), (0, 45930045), (555, 0), (385, 0),
    (4, 0)], [(32804781, 0), (76695, 0), (0, 4), (0, 2)], [(0, 60409), (0, 124)]], 3, 4⟩, 17592186044416, 15939888,
    8717512098174500205896397037433867180958382483067061306500648444909566470662430685889571597617405715512362667588089033917590624,
    lc0⟩)) (.leaf ⟨431, 16, 1172, 234, 16, 1159, ⟨[[(16927755747033088, 0), (0, 3295048729277531), (78839657044, 0),
    (0, 5613200), (0, 919)], [(12160145194506284, 0), (0, 4616805962225), (166178191, 0), (0, 8512), (0, 1)], [(0,
    10283265098282), (63052968, 0), (195472, 0), (33, 0)], [(12416813573, 0), (0, 22401), (166, 0)]], 3, 4⟩,
    ⟨[[(11234077871005696, 0), (0, 2720004117328767), (9476575681, 0), (0, 10909025), (0, 2673)], [(0,
    20260821020650264), (0, 508478684608), (0, 48783001), (0, 30431), (0, 7)], [(9702814318964, 0), (735241908, 0),
    (67477, 0), (30, 0)], [(0, 4707113966), (0, 77613), (225, 0)]], 3, 4⟩, 72057594037927936, 1553437395596,
    1025503224428, ⟨[[(10150585021267, 0), (30844038449, 0), (20807564, 0), (0, 72727), (0, 410)], [(0, 25467329542),
    (0, 101096288), (0, 27572), (984, 0), (14, 0)], [(79558324, 0), (273163, 0), (150, 0), (0, 7)], [(0, 237591), (0,
    694), (0, 2)]], 3, 4⟩, 17592186044416, 126381271,
    7808116068092022591113295307127954435452789704813143851212732373824978884084906132794387369943574376848968618848265422083171556,
    lc0⟩)) (.sy (.leaf ⟨509, 16, 1334, 213, 16, 1112, ⟨[[(34394107352780800, 0), (0, 2053685345504903), (26264565333,
    0), (0, 791843), (0, 59)], [(26378867316681134, 0), (0, 5302480058455), (110443314, 0), (0, 1140)], [(0,
    36801282020115), (0, 37837514), (236211, 0), (21, 0)], [(99734037595, 0), (0, 1276762), (230, 0)]], 3, 4⟩, ⟨[[(0,
    17451499146754048), (0, 1319914555406219), (2692107937, 0), (0, 1348057), (0, 163)], [(0, 36536926849606089), (0,
    391972672031), (0, 13710270), (0, 5557), (0, 1)], [(33657787160263, 0), (1331155931, 0), (86756, 0), (17, 0)],
    [(0, 32435446558), (0, 572264), (295, 0)]], 3, 4⟩, 72057594037927936, 20016212779728, 5279620062431,
    ⟨[[(9410014980759, 0), (29978737933, 0), (24264956, 0), (0, 56604), (0, 173)], [(0, 19292289125), (0, 84173515),
    (0, 42345), (387, 0), (6, 0)], [(51052336, 0), (191676, 0), (175, 0), (0, 2)], [(0, 129376), (0, 394), (0, 1)]],
    3, 4⟩, 17592186044416, 51744783,
    5936804626459647484133016731174043207154730165342609875472336520341752246801854622231276985209371649976605882518296362160894772,
    lc0⟩) (.leaf ⟨525, 16, 1413, 203, 16, 1108, ⟨[[(0, 29548479488679936), (0, 2148041775375046), (26454602498, 0),
    (0, 979964), (0, 79)], [(25150885132458167, 0), (0, 5499925325216), (115257595, 0), (0, 1084)], [(0,
    38934771539463), (229221173, 0), (287802, 0), (28, 0)], [(105028037660, 0), (0, 1076119), (309, 0)]], 3, 4⟩,
    ⟨[[(0, 11740819574700032), (0, 1313576381988987), (393062851, 0), (0, 1711561), (0, 206)], [(0,
    36605745848617746), (0, 408795659278), (0, 23003522), (0, 6908), (0, 1)], [(34226669443167, 0), (1427364076, 0),
    (115823, 0), (22, 0)], [(0, 32525599076), (0, 242581), (361, 0)]], 3, 4⟩, 72057594037927936, 22163212589919,
    5175366963976, ⟨[[(9390658941222, 0), (30772437091, 0), (26657602, 0), (0, 54214), (0, 193)], [(0, 18790115838),
    (0, 83889050), (0, 53441), (188, 0), (5, 0)], [(48740870, 0), (182284, 0), (225, 0)], [(0, 121097), (0, 345), (0,
    1)]], 3, 4⟩, 17592186044416, 45952865,
    3798535787754784401587819171313813039077334473090228895318804187205327146184299391614889703831339605339966318024447759712514819,
    lc0⟩))
theorem c91 : checkR job con0 true ⟨7, 9, 7, 9, 13, 17⟩ 1 28336 t91 201 21 320 29741 251 32000 = true := by decide +kernel

def t92 : CTree :=
  .sy (.sx (.sy (.leaf ⟨499, 16, 1196, 223, 16, 1174, ⟨[[(0, 23093533573476352), (0, 2099484925739510), (30019838497,
    0), (0, 575487), (0, 26)], [(26229607620368512, 0), (0, 5000217475936), (117046542, 0), (0, 230)], [(0,
    22109791091149), (0, 660943806), (178728, 0), (12, 0)], [(78953735571, 0), (0, 2485805), (35, 0)]], 3, 4⟩, ⟨[[(0,
    25136456666669056), (0, 1417545608072854), (6325635395, 0), (0, 1014438), (0, 117)], [(0, 35463932965250962), (0,
    299262189073), (4492115, 0), (0, 2525)], [(30268091329976, 0), (1129439648, 0), (67230, 0), (14, 0)], [(0,
    29171760701), (0, 1126923), (112, 0)]], 3, 4⟩, 72057594037927936, 12439179724306, 4560055226287,
    ⟨[[(8548456579584, 0), (24900250626, 0), (20422000, 0), (0, 35489), (21, 0)], [(0, 16810872750), (0, 72048735),
    (0, 33228), (224, 0), (2, 0)], [(44725658, 0), (170031, 0), (76, 0), (0, 1)], [(0, 114295), (0, 359), (0, 1)]],
    3, 4⟩, 17592186044416, 45543644,
    4889859816431203344201103036681948996425670339511169187559103255870929910771018966564635150332079383357046863400789347210932689,
    lc0⟩) (.leaf ⟨512, 16, 1264, 212, 16, 1172, ⟨[[(0, 22740228513071104), (0, 2187474878418208), (30764656026, 0),
    (0, 672693), (0, 37)], [(25099254259787456, 0), (0, 5160393304648), (123653673, 0), (192, 0)], [(0,
    23668162559628), (0, 498075571), (211457, 0), (17, 0)], [(82133662179, 0), (0, 2587411), (42, 0)]], 3, 4⟩,
    ⟨[[(31225168964327424, 0), (0, 1409619653125180), (4595664415, 0), (0, 1282539), (0, 153)], [(0,
    35552701762724413), (0, 296331559659), (154795, 0), (0, 3251)], [(30801357472064, 0), (1206512694, 0), (91202,
    0), (18, 0)], [(0, 29656568930), (0, 1000419), (137, 0)]], 3, 4⟩, 72057594037927936, 13850673223789,
    4530093485259, ⟨[[(8528762555208, 0), (25570515655, 0), (22227353, 0), (0, 38108), (0, 32)], [(0, 16436287919),
    (0, 72408982), (0, 40080), (145, 0), (2, 0)], [(43084781, 0), (165144, 0), (112, 0)], [(0, 108608), (0, 328), (0,
    1)]], 3, 4⟩, 17592186044416, 40936412,
    4416983262584214831196319323900730848157567611728004119403873470736308900762891709475899896750915067095796704787894898066572947,
    lc0⟩)) (.sy (.leaf ⟨505, 16, 1176, 212, 16, 1229, ⟨[[(0, 5881478178828288), (0, 2272219682655493), (34662329335,
    0), (0, 554219), (0, 15)], [(24359885965318382, 0), (0, 4985880698634), (129861306, 0), (769, 0)], [(0,
    12502568393118), (0, 1020345061), (173931, 0), (11, 0)], [(69596062115, 0), (0, 3430961), (0, 63)]], 3, 4⟩,
    ⟨[[(13556537731999744, 0), (0, 1495116290794744), (6950582259, 0), (0, 1145956), (0, 134)], [(0,
    34618616945245507), (0, 220343635431), (11068573, 0), (0, 1342)], [(28075050420907, 0), (1028608283, 0), (79216,
    0), (16, 0)], [(0, 26878357636), (0, 1267315), (24, 0)]], 3, 4⟩, 72057594037927936, 8033223078679, 4050357763976,
    ⟨[[(7831721063655, 0), (21994518915, 0), (20077410, 0), (0, 29098), (0, 16)], [(0, 14452831399), (0, 63945226),
    (0, 37459), (99, 0)], [(38180151, 0), (150572, 0), (68, 0)], [(0, 97532), (0, 304)]], 3, 4⟩, 17592186044416,
    37637509,
    3285623849242960938107013149307547273887070305211345601514225524744718755055107265693219130736475590420478674116146980772297013,
    lc0⟩) (.leaf ⟨517, 16, 1244, 202, 16, 1228, ⟨[[(35772493540130816, 0), (0, 2367245156709725), (35756826936, 0),
    (0, 624488), (0, 23)], [(23155556304174607, 0), (0, 5135459672215), (139158584, 0), (1586, 0)], [(0,
    13719350016238), (0, 884686903), (204773, 0), (16, 0)], [(71779451002, 0), (0, 3709474), (0, 94)]], 3, 4⟩, ⟨[[(0,
    26649694334816256), (0, 1487865175034703), (4998999637, 0), (0, 1452655), (0, 174)], [(0, 34698366447553768), (0,
    210175115974), (8734260, 0), (0, 1760)], [(28590222357936, 0), (1120215890, 0), (106052, 0), (20, 0)], [(0,
    27486053503), (0, 1241739), (25, 0)]], 3, 4⟩, 72057594037927936, 9176282874379, 3996143825370, ⟨[[(7852335757972,
    0), (22677798191, 0), (21629470, 0), (0, 29525), (0, 36)], [(0, 14275193601), (0, 64600577), (0, 40189), (69,
    0)], [(37285987, 0), (147209, 0), (72, 0)], [(0, 94362), (0, 280)]], 3, 4⟩, 17592186044416, 35185870,
    4754704778501680208344882714300204207596892140426510229866200773805847667228586071717471296217169701546362969725829433620340716,
    lc0⟩))) (.sx (.sy (.leaf ⟨526, 16, 1338, 202, 16, 1170, ⟨[[(0, 27260927060803584), (0, 2283402838873636),
    (31427760287, 0), (0, 803330), (0, 52)], [(23859522739432619, 0), (0, 5330803389510), (131597481, 0), (748, 0)],
    [(0, 25259605027906), (0, 287479890), (255123, 0), (24, 0)], [(85579154917, 0), (0, 2689889), (53, 0)]], 3, 4⟩,
    ⟨[[(20241663170062336, 0), (0, 1403658374074881), (2408029637, 0), (0, 1628727), (0, 195)], [(0,
    35640933852042295), (0, 298333510387), (0, 5367604), (0, 4113)], [(31378777812460, 0), (1310502253, 0), (121342,
    0), (22, 0)], [(0, 30070572680), (0, 847404), (166, 0)]], 3, 4⟩, 72057594037927936, 15508129175369,
    4449898052468, ⟨[[(8531372053332, 0), (26294419783, 0), (24075981, 0), (0, 38171), (0, 59)], [(0, 16125436076),
    (0, 72622028), (0, 44712), (75, 0), (1, 0)], [(41638730, 0), (159137, 0), (125, 0), (1, 0)], [(0, 103534), (0,
    295), (0, 1)]], 3, 4⟩, 17592186044416, 37550645,
    3506535182351585870544371893056033613076239222624033059209295005068338382046701703629703046290707404430612221586330438881499280,
    lc0⟩) (.leaf ⟨541, 16, 1420, 192, 16, 1166, ⟨[[(4841481817014272, 0), (0, 2390529270834906), (31979418399, 0),
    (0, 977758), (0, 70)], [(22517014832302549, 0), (0, 5516517937960), (141358511, 0), (1478, 0)], [(0,
    26889206479635), (0, 12666719), (313527, 0), (32, 0)], [(89405971002, 0), (0, 2792437), (68, 0)]], 3, 4⟩, ⟨[[(0,
    10855486382272512), (0, 1397781809043890), (0, 363205351), (0, 2062804), (0, 244)], [(0, 35670233270488125), (0,
    306030369436), (0, 12271520), (0, 5122), (0, 1)], [(31960587893857, 0), (1445638686, 0), (158541, 0), (28, 0)],
    [(0, 30347197786), (0, 661225), (201, 0)]], 3, 4⟩, 72057594037927936, 17487582367523, 4274415480872,
    ⟨[[(8549859165568, 0), (27135843051, 0), (26075426, 0), (0, 36816), (0, 69)], [(0, 15867337266), (0, 72896919),
    (0, 47673), (12, 0), (1, 0)], [(40389322, 0), (152723, 0), (124, 0), (1, 0)], [(0, 99120), (0, 262), (0, 1)]], 3,
    4⟩, 17592186044416, 34400551,
    4881770561295605631683820575196119320956790183935689828097516109068988773404499981976901111953771307450688826699942320208159916,
    lc0⟩)) (.sy (.leaf ⟨531, 16, 1318, 191, 16, 1226, ⟨[[(0, 4430836130357248), (0, 2470540238772700), (36846160775,
    0), (0, 719548), (0, 34)], [(21839018889207976, 0), (0, 5291412265440), (150684752, 0), (2664, 0), (1, 0)], [(0,
    14949030850526), (0, 705547094), (246031, 0), (22, 0)], [(74048356297, 0), (0, 4047664), (0, 135)]], 3, 4⟩,
    ⟨[[(0, 2308200579772416), (0, 1481621076079464), (2521431046, 0), (0, 1844951), (0, 221)], [(0,
    34745230207941723), (0, 202526025294), (5710612, 0), (0, 2254)], [(29134451439354, 0), (1241010212, 0), (139636,
    0), (25, 0)], [(0, 28057194156), (0, 1213842), (27, 0)]], 3, 4⟩, 72057594037927936, 10535031513920,
    3883545894721, ⟨[[(7836654875703, 0), (23288608057, 0), (23309268, 0), (0, 28799), (0, 45)], [(0, 13960980760),
    (0, 64800066), (0, 41937), (41, 0)], [(36010028, 0), (142281, 0), (64, 0), (1, 0)], [(0, 90240), (0, 254)]], 3,
    4⟩, 17592186044416, 32066997,
    5510745146829229217343810058159625853029240838648622930158577015650818055877391111215795386809076132042097448637425146565904238,
    lc0⟩) (.leaf ⟨545, 16, 1399, 180, 16, 1224, ⟨[[(31311057535942656, 0), (0, 2583701431851927), (37900855048, 0),
    (0, 846628), (0, 47)], [(20402340265039671, 0), (0, 5453581131020), (165117972, 0), (4079, 0), (1, 0)], [(0,
    16174737629512), (0, 467456945), (301192, 0), (30, 0)], [(76402492275, 0), (0, 4462643), (0, 189)]], 3, 4⟩,
    ⟨[[(25703473260470272, 0), (0, 1478187392479711), (0, 616578972), (0, 2338344), (0, 275)], [(0,
    34788917262404139), (0, 198313858173), (1884938, 0), (0, 2833)], [(29747360245714, 0), (1399245142, 0), (181325,
    0), (31, 0)], [(0, 28612951299), (0, 1184350), (28, 0)]], 3, 4⟩, 72057594037927936, 12160811929856,
    3700237264021, ⟨[[(7834148380530, 0), (23985360177, 0), (25059017, 0), (0, 27529), (0, 43)], [(0, 13725499008),
    (0, 65186182), (0, 42555), (16, 0)], [(35089019, 0), (137633, 0), (51, 0), (1, 0)], [(0, 87372), (0, 228)]], 3,
    4⟩, 17592186044416, 29630438,
    4886721585301927652831731441205635479134048666730550273557173492653656213937453933658426277705975847348742276528541127092874789,
    lc0⟩)))
theorem c92 : checkR job con0 true ⟨7, 9, 7, 9, 13, 17⟩ 1 28336 t92 243 21 320 14745 251 16000 = true := by decide +kernel

def t93 : CTree :=
  .sx (.sy (.leaf ⟨511, 16, 1458, 204, 16, 1044, ⟨[[(26718310643281920, 0), (0, 1955474212131235), (21289647489, 0),
    (0, 1092703), (0, 97)], [(27098307492718833, 0), (0, 5604049363375), (90844929, 0), (0, 3668)], [(0,
    54893941579725), (535876409, 0), (279713, 0), (26, 0)], [(129551528609, 0), (1058022, 0), (637, 0)]], 3, 4⟩,
    ⟨[[(0, 31988224887664640), (0, 1218763248216320), (0, 786697638), (0, 1670925), (0, 203)], [(0,
    37628786495341745), (0, 534283599626), (0, 42111530), (0, 9810), (0, 1)], [(37085204274597, 0), (1427587628, 0),
    (79517, 0), (17, 0)], [(0, 35138417021), (492783, 0), (592, 0)]], 3, 4⟩, 72057594037927936, 28723894323503,
    6439946086728, ⟨[[(10453396127354, 0), (36268615111, 0), (28804101, 0), (0, 103909), (0, 854)], [(0,
    22632271132), (0, 100241887), (0, 58797), (848, 0), (18, 0)], [(60388283, 0), (225400, 0), (344, 0), (0, 4)],
    [(0, 153652), (0, 461), (0, 2)]], 3, 4⟩, 17592186044416, 72751641,
    8792245344384111107655165794056251231889042909845834020496219044071954614079319771286705359517729521093540024410180342655277903,
    lc0⟩) (.sx (.leaf ⟨725, 16, 2138, 312, 16, 1624, ⟨[[(0, 23047475750158336), (0, 2752376727462472), (27319153073,
    0), (0, 1848515), (0, 168)], [(18694172948768762, 0), (0, 4056561282776), (57473992, 0), (0, 3563)], [(0,
    21538384833107), (284219372, 0), (109437, 0), (11, 0)], [(25024927034, 0), (407389, 0), (156, 0)]], 3, 4⟩,
    ⟨[[(7899833162522624, 0), (0, 1889410449280770), (0, 4678702638), (0, 3106284), (0, 371)], [(0,
    30111553945546252), (0, 479157497676), (0, 47055738), (0, 9641), (0, 1)], [(15142969799482, 0), (576884056, 0),
    (32609, 0), (7, 0)], [(0, 7015881727), (238258, 0), (150, 0)]], 3, 4⟩, 72057594037927936, 2851184346547,
    704604837646, ⟨[[(10716285609908, 0), (24291533670, 0), (12822935, 0), (0, 27610), (0, 172)], [(0, 16639582881),
    (0, 47167543), (0, 22689), (124, 0), (2, 0)], [(31553103, 0), (73696, 0), (94, 0)], [(0, 56928), (0, 102)]], 3,
    4⟩, 17592186044416, 14117053,
    6581814392531807106771027447945991425905268391774158995900342777688173561817821541016527710499785940004387208317786055415008024,
    lc0⟩) (.leaf ⟨731, 16, 2127, 301, 16, 1656, ⟨[[(21061350984933376, 0), (0, 2907188932687750), (29783305781, 0),
    (0, 1967289), (0, 176)], [(16925792934654357, 0), (0, 4010080598190), (67112818, 0), (0, 2525)], [(0,
    18433744813252), (323464093, 0), (127238, 0), (13, 0)], [(22654978025, 0), (237070, 0), (135, 0)]], 3, 4⟩, ⟨[[(0,
    19203141787676672), (0, 1946106211478629), (0, 6716533453), (0, 3566757), (0, 417)], [(0, 29444726004935339), (0,
    437951413024), (0, 44413036), (0, 9148), (0, 1)], [(14573143453011, 0), (616912866, 0), (51353, 0), (9, 0)], [(0,
    6643798623), (208231, 0), (134, 0)]], 3, 4⟩, 72057594037927936, 2625004416817, 612217669773, ⟨[[(10159333701912,
    0), (22941145932, 0), (13200857, 0), (0, 17513), (0, 80)], [(0, 15354269070), (0, 44340087), (0, 23434), (21, 0),
    (1, 0)], [(29070422, 0), (67261, 0), (81, 0)], [(0, 52474), (0, 88)]], 3, 4⟩, 17592186044416, 11943084,
    8011597060292209195272178244563412614266707479046249070936677267952649587293128601721949390017180174141960713410756410035799668,
    lc0⟩))) (.sy (.leaf ⟨541, 16, 1500, 193, 16, 1103, ⟨[[(7190761444106240, 0), (0, 2252934541972616), (26380652290,
    0), (0, 1227754), (0, 104)], [(23799187853827669, 0), (0, 5716553568077), (120725650, 0), (0, 1010)], [(0,
    41128865546057), (574572131, 0), (356294, 0), (38, 0)], [(111010762395, 0), (0, 771381), (414, 0)]], 3, 4⟩,
    ⟨[[(0, 13691520051339264), (0, 1308653578132236), (0, 2508453752), (0, 2163836), (0, 255)], [(0,
    36651535933008043), (0, 435529545439), (0, 34432842), (0, 8483), (0, 1)], [(34817463922682, 0), (1554254009, 0),
    (151570, 0), (27, 0)], [(0, 32403042127), (158485, 0), (440, 0)]], 3, 4⟩, 72057594037927936, 24700717674254,
    4982498569462, ⟨[[(9400952706732, 0), (31734014119, 0), (29243257, 0), (0, 49521), (0, 186)], [(0, 18430964700),
    (0, 83839144), (0, 60773), (23, 0), (3, 0)], [(47007515, 0), (172903, 0), (238, 0), (1, 0)], [(0, 114834), (0,
    300), (0, 1)]], 3, 4⟩, 17592186044416, 40787047,
    6738741847479722837534795602208827188912641372478853329726010329693348143626273651463891058352361691663162475537293852731249044,
    lc0⟩) (.leaf ⟨559, 16, 1596, 183, 16, 1096, ⟨[[(9081937758920704, 0), (0, 2369987437765367), (25923007066, 0),
    (0, 1551840), (0, 135)], [(22301204032141053, 0), (0, 5954219578788), (126954106, 0), (0, 912)], [(0,
    43353296853002), (1024775017, 0), (446998, 0), (50, 0)], [(117823517333, 0), (0, 323356), (554, 0)]], 3, 4⟩,
    ⟨[[(0, 34979623819853824), (0, 1304611503752520), (0, 6141313009), (0, 2714820), (0, 311)], [(0,
    36645926388278406), (0, 473941920677), (0, 48279496), (0, 10299), (0, 1)], [(35413271659784, 0), (1717082415, 0),
    (194890, 0), (32, 0)], [(0, 32000437339), (643396, 0), (534, 0)]], 3, 4⟩, 72057594037927936, 27730828924896,
    4681091099450, ⟨[[(9411040686835, 0), (32749748499, 0), (31876241, 0), (0, 43706), (0, 152)], [(0, 18048417022),
    (0, 83482537), (0, 64039), (0, 99), (1, 0)], [(45204428, 0), (162567, 0), (221, 0), (2, 0)], [(0, 108367), (0,
    259), (0, 1)]], 3, 4⟩, 17592186044416, 37413684,
    8015041247156200846596769713302299463944732659529396882458960839582152146362802419164589433307883462222283886274090051694615574,
    lc0⟩))
theorem c93 : checkR job con0 true ⟨7, 9, 7, 9, 13, 17⟩ 1 28336 t93 201 21 320 30243 251 32000 = true := by decide +kernel

def t94 : CTree :=
  .sx (.sy (.sx (.sx (.leaf ⟨904, 16, 2750, 423, 16, 2265, ⟨[[(29295698287788032, 0), (0, 3452772551007591),
    (30529084919, 0), (0, 2798576), (0, 257)], [(11016027046996728, 0), (0, 2578901331058), (31550785, 0), (0,
    2850)], [(0, 7129794487977), (123428223, 0), (39038, 0), (4, 0)], [(4161691345, 0), (100650, 0), (32, 0)]], 3,
    4⟩, ⟨[[(8342337293791232, 0), (0, 2637354890732668), (0, 12958009168), (0, 5312098), (0, 617)], [(0,
    21402986951400116), (0, 381430865155), (0, 44590998), (0, 8272), (0, 1)], [(5460196048820, 0), (209971596, 0),
    (13269, 0), (3, 0)], [(0, 1219271779), (72191, 0), (33, 0)]], 3, 4⟩, 72057594037927936, 277672290493,
    131973893398, ⟨[[(10881557479533, 0), (18022299998, 0), (7237631, 0), (0, 8729), (0, 44)], [(0, 13752672449), (0,
    27923680), (0, 11876), (16, 0)], [(21128060, 0), (34164, 0), (36, 0)], [(0, 30805), (0, 36)]], 3, 4⟩,
    17592186044416, 5405650,
    9119204253040642104570125933456087922214964882121146373335948782081537236282461553433959615088948500473258838925518132258463854,
    lc0⟩) (.leaf ⟨899, 16, 2714, 413, 16, 2276, ⟨[[(0, 19037808308248576), (0, 3514246563370222), (31507501573, 0),
    (0, 2872721), (0, 262)], [(10302147253426615, 0), (0, 2534407309966), (34539248, 0), (0, 2454)], [(0,
    6531157064805), (133462409, 0), (42427, 0), (5, 0)], [(3914589245, 0), (85371, 0), (30, 0)]], 3, 4⟩, ⟨[[(0,
    16715362169745408), (0, 2665883630713347), (0, 14876929223), (0, 5682031), (0, 653)], [(0, 21052445392367692),
    (0, 365181860909), (0, 43516345), (0, 8068), (0, 1)], [(5335353884574, 0), (219919834, 0), (17372, 0), (3, 0)],
    [(0, 1178237049), (68963, 0), (31, 0)]], 3, 4⟩, 72057594037927936, 267382153680, 130239273580,
    ⟨[[(10574473340568, 0), (17570060355, 0), (7363336, 0), (0, 6818), (0, 29)], [(0, 13310984374), (0, 27405128),
    (0, 11738), (2, 0)], [(20641073, 0), (33325, 0), (33, 0)], [(0, 30411), (0, 35)]], 3, 4⟩, 17592186044416,
    5138114,
    9875157300398036397788875020540248717312405141399971692722658549350931595364146195739491846417945588811244299189476577416944875,
    lc0⟩)) (.sy (.leaf ⟨1134, 16, 3368, 371, 16, 2113, ⟨[[(225809301422080, 0), (0, 2284632817501110), (10848114319,
    0), (0, 445940), (0, 20)], [(24425320318683770, 0), (0, 3135749490347), (25383769, 0), (0, 549)], [(0,
    28966341920851), (336751480, 0), (56924, 0), (3, 0)], [(36046472128, 0), (275398, 0), (63, 0)]], 3, 4⟩, ⟨[[(0,
    19391552413405184), (0, 1245836213527057), (0, 3546741085), (0, 677043), (0, 39)], [(0, 37789546587979294), (0,
    303349214414), (0, 17716095), (0, 1687)], [(18901150726389, 0), (420907045, 0), (20000, 0), (2, 0)], [(0,
    8351730250), (202302, 0), (50, 0)]], 3, 4⟩, 72057594037927936, 4174320305045, 691910060575, ⟨[[(10153442823213,
    0), (18285200773, 0), (8636460, 0), (0, 7008), (0, 24)], [(0, 9966068888), (0, 22699354), (0, 10056), (0, 5)],
    [(12288646, 0), (21720, 0), (21, 0)], [(0, 14427), (0, 18)]], 3, 4⟩, 17592186044416, 2152245,
    8595712353257105023566026472935542177511017566970017677440466792258163929352247186282192046648922609655816460759151436551971629,
    lc0⟩) (.leaf ⟨1155, 16, 3479, 360, 16, 2104, ⟨[[(0, 1850239894536192), (0, 2349036581138861), (10479472842, 0),
    (0, 504398), (0, 23)], [(23610820466492270, 0), (0, 3213208438314), (25337129, 0), (0, 606)], [(0,
    29731131938693), (409431623, 0), (63964, 0), (4, 0)], [(37394364976, 0), (353859, 0), (73, 0)]], 3, 4⟩,
    ⟨[[(35734186642837504, 0), (0, 1244605152547630), (0, 4607029683), (0, 755291), (0, 42)], [(0,
    37784883666421211), (0, 321079561122), (0, 20294401), (0, 1846)], [(19036280664515, 0), (440449588, 0), (22630,
    0), (2, 0)], [(0, 8202155299), (253610, 0), (55, 0)]], 3, 4⟩, 72057594037927936, 4414524068049, 666793172503,
    ⟨[[(10138919930360, 0), (18561307798, 0), (9061330, 0), (0, 6125), (0, 19)], [(0, 9822631261), (0, 22556650), (0,
    10205), (0, 12)], [(11985102, 0), (20875, 0), (19, 0)], [(0, 13903), (0, 16)]], 3, 4⟩, 17592186044416, 1941201,
    9201249158764122278418676220534033506402247019745315517052010596527140538502768127826584367001506319840485423799179692478872543,
    lc0⟩))) (.sx (.sx (.sy (.leaf ⟨1518, 16, 4710, 579, 16, 3206, ⟨[[(14568591769026560, 0), (0, 2938210220546289),
    (11620538934, 0), (0, 687901), (0, 31)], [(17211857909493519, 0), (0, 2189213292005), (12043851, 0), (0, 689)],
    [(0, 12121939869732), (132424574, 0), (18833, 0), (1, 0)], [(7201001312, 0), (108739, 0), (16, 0)]], 3, 4⟩,
    ⟨[[(25454510213750784, 0), (0, 1875126410475751), (0, 6903688650), (0, 1116928), (0, 63)], [(0,
    30507778012335159), (0, 296322815818), (0, 19329263), (0, 1684)], [(7843413609408, 0), (156501845, 0), (5823, 0),
    (1, 0)], [(0, 1680436157), (69919, 0), (13, 0)]], 3, 4⟩, 72057594037927936, 417077137159, 93965532545,
    ⟨[[(10874827630979, 0), (12938988905, 0), (3884819, 0), (0, 2343), (0, 9)], [(0, 8247763663), (0, 11877618), (0,
    3903), (0, 1)], [(7619179, 0), (8450, 0), (6, 0)], [(0, 6666), (0, 5)]], 3, 4⟩, 17592186044416, 667407,
    10406757601704069079964949438122166400257226035306196861453387684752534733851791223264459495716428671266736010295420555633269802,
    lc0⟩) (.sx (.leaf ⟨1838, 16, 5789, 799, 16, 4488, ⟨[[(0, 1212856705695744), (0, 3569511578121136), (12810323003,
    0), (0, 916948), (0, 42)], [(10060871628322159, 0), (0, 1340202331666), (6476642, 0), (0, 474)], [(0,
    3773504256040), (45509664, 0), (6106, 0)], [(1129084970, 0), (19855, 0), (3, 0)]], 3, 4⟩, ⟨[[(0,
    2153322409410560), (0, 2631188746178742), (0, 11832753866), (0, 1722360), (0, 96)], [(0, 21578068674437534), (0,
    224282667548), (0, 15482602), (0, 1300)], [(2791175074639, 0), (56031015, 0), (2170, 0)], [(0, 290251497),
    (14875, 0), (3, 0)]], 3, 4⟩, 72057594037927936, 38515785926, 18205837881, ⟨[[(10956510128951, 0), (9390573039,
    0), (2056415, 0), (0, 743), (0, 2)], [(0, 6916989948), (0, 7089958), (0, 1719), (0, 1)], [(5306312, 0), (4119,
    0), (2, 0)], [(0, 3847), (0, 2)]], 3, 4⟩, 17592186044416, 272949,
    10808633100492508135492714701072996431786737744583785994073069619659117916965626900464293863070843206637080977930638740815676048,
    lc0⟩) (.leaf ⟨1831, 16, 5750, 788, 16, 4498, ⟨[[(24129801262170112, 0), (0, 3601292188923002), (13005111706, 0),
    (0, 929944), (0, 42)], [(9684140269392488, 0), (0, 1327273849402), (6957132, 0), (0, 442)], [(0, 3608490540645),
    (47624448, 0), (6413, 0)], [(1094331750, 0), (18703, 0), (3, 0)]], 3, 4⟩, ⟨[[(15374706335162368, 0), (0,
    2646392169618383), (0, 12506807343), (0, 1780550), (0, 98)], [(0, 21392696011730036), (0, 219986977534), (0,
    15320604), (0, 1285)], [(2761112260651, 0), (58014118, 0), (2502, 0)], [(0, 285074816), (14580, 0), (3, 0)]], 3,
    4⟩, 72057594037927936, 38900715121, 18861386886, ⟨[[(10800257699351, 0), (9279039330, 0), (2064710, 0), (0, 651),
    (0, 2)], [(0, 6816168602), (0, 7034437), (0, 1669), (0, 1)], [(5263154, 0), (4080, 0), (2, 0)], [(0, 3841), (0,
    2)]], 3, 4⟩, 17592186044416, 285176,
    10635769122187992304458304476355836428065573555971889788276289897632989360401005774332358611880389823434865692511965625968919511,
    lc0⟩))) (.sy (.leaf ⟨1525, 16, 4702, 567, 16, 3237, ⟨[[(25201008120791040, 0), (0, 3024769409877418),
    (12140135583, 0), (0, 713755), (0, 33)], [(16203542581330932, 0), (0, 2173838396982), (13687075, 0), (0, 597)],
    [(0, 11217303938070), (145057426, 0), (20793, 0), (1, 0)], [(6845522775, 0), (95302, 0), (15, 0)]], 3, 4⟩,
    ⟨[[(13939709463863296, 0), (0, 1905539691896910), (0, 7778758386), (0, 1198109), (0, 67)], [(0,
    30146413018306786), (0, 285547062547), (0, 18951730), (0, 1650)], [(7709622892371, 0), (166695529, 0), (7544, 0),
    (1, 0)], [(0, 1632198889), (67014, 0), (13, 0)]], 3, 4⟩, 72057594037927936, 404825465761, 83902143711,
    ⟨[[(10574015567792, 0), (12568151309, 0), (3882201, 0), (0, 1823), (0, 5)], [(0, 7913738445), (0, 11494707), (0,
    3635), (0, 2)], [(7312206, 0), (8052, 0), (5, 0)], [(0, 6403), (0, 5)]], 3, 4⟩, 17592186044416, 609467,
    10138644728250369997557208872633212279502382601885521190743001278256577272329315795419012572700944349959546216095911740431648883,
    lc0⟩) (.leaf ⟨1540, 16, 4814, 551, 16, 3221, ⟨[[(10862001826168832, 0), (0, 3084909023392404), (11276931940, 0),
    (0, 800649), (0, 36)], [(15475697365559128, 0), (0, 2212023550922), (13055889, 0), (0, 661)], [(0,
    11404424399942), (170813059, 0), (23168, 0), (1, 0)], [(7061674760, 0), (114258, 0), (18, 0)]], 3, 4⟩,
    ⟨[[(10885649833795584, 0), (0, 1904827991088613), (0, 9639682422), (0, 1332381), (0, 73)], [(0,
    30145004819980581), (0, 304349157876), (0, 21447291), (0, 1799)], [(7756758539169, 0), (173913510, 0), (8529, 0),
    (1, 0)], [(0, 1587329850), (80156, 0), (14, 0)]], 3, 4⟩, 72057594037927936, 424133372750, 81630370027,
    ⟨[[(10572868022628, 0), (12768289879, 0), (4065221, 0), (0, 1531), (0, 4)], [(0, 7882794904), (0, 11519809), (0,
    3678), (0, 4)], [(7266184, 0), (7888, 0), (5, 0)], [(0, 6331), (0, 5)]], 3, 4⟩, 17592186044416, 568097,
    10450581837676742999456275628061676178721511003165761970157175565053818882986381332385540734414593632255292663957362770952983845,
    lc0⟩))) (.sx (.leaf ⟨895, 16, 2761, 380, 16, 2266, ⟨[[(0, 21422624103776256), (0, 3651833439488559),
    (28620564172, 0), (0, 3621689), (0, 328)], [(8664348581058560, 0), (0, 2529035224225), (35547765, 0), (0, 2406)],
    [(0, 6068788504518), (197045555, 0), (55584, 0), (6, 0)], [(3836845621, 0), (103429, 0), (36, 0)]], 3, 4⟩,
    ⟨[[(14621871782756352, 0), (0, 2690603592687111), (0, 26715523710), (0, 7494296), (0, 822)], [(0,
    20704523326873274), (0, 392948697741), (0, 54539148), (0, 9327), (0, 1)], [(5286690617820, 0), (251422073, 0),
    (27135, 0), (4, 0)], [(0, 1091515219), (96087, 0), (35, 0)]], 3, 4⟩, 72057594037927936, 277439519624,
    124431730761, ⟨[[(10278762408349, 0), (17694577511, 0), (8165782, 0), (0, 4172), (0, 12)], [(0, 13027268261), (0,
    27579571), (0, 11881), (0, 18)], [(20695562, 0), (32430, 0), (26, 0)], [(0, 31137), (0, 33)]], 3, 4⟩,
    17592186044416, 4928937,
    10109898438327317213465314402697427722403828784880124359645448403575749750396408791968584946355592206798846178347977613980793952,
    lc0⟩) (.leaf ⟨887, 16, 2722, 370, 16, 2277, ⟨[[(0, 7137811145703424), (0, 3704619343466099), (29787416552, 0),
    (0, 3658683), (0, 329)], [(8059066719979555, 0), (0, 2476487267874), (39829233, 0), (0, 1817)], [(0,
    5518402630986), (205919521, 0), (59034, 0), (7, 0)], [(3593934557, 0), (82811, 0), (32, 0)]], 3, 4⟩,
    ⟨[[(3669661283016704, 0), (0, 2719796067760848), (0, 29096294484), (0, 7916171), (0, 861)], [(0,
    20364535650179106), (0, 373137331838), (0, 52330242), (0, 8976), (0, 1)], [(5176331773534, 0), (264300341, 0),
    (31575, 0), (5, 0)], [(0, 1063087936), (88301, 0), (33, 0)]], 3, 4⟩, 72057594037927936, 260827127349,
    121444352388, ⟨[[(10011959127667, 0), (17288598935, 0), (8172816, 0), (0, 3757), (0, 7)], [(0, 12693797867), (0,
    27263883), (0, 11072), (0, 18)], [(20462169, 0), (32140, 0), (23, 0)], [(0, 31249), (0, 33)]], 3, 4⟩,
    17592186044416, 4887631,
    9542177091017891585880433310494617937005380608546508879214780154962737601363573685800908063728984972367472701359679504691072670,
    lc0⟩)))) (.sy (.sx (.leaf ⟨745, 16, 2204, 273, 16, 1676, ⟨[[(33254023747485696, 0), (0, 3153890116413537),
    (30527435990, 0), (0, 2535246), (0, 226)], [(14003418055181842, 0), (0, 4045519209246), (79262696, 0), (0,
    1385)], [(0, 16062653968436), (515664199, 0), (175306, 0), (20, 0)], [(21393187111, 0), (175357, 0), (140, 0)]],
    3, 4⟩, ⟨[[(33813144042749952, 0), (0, 1998981962836475), (0, 15320480193), (0, 4998139), (0, 557)], [(0,
    28803041722415634), (0, 436594818760), (0, 53822203), (0, 10153), (0, 1)], [(14273214318759, 0), (724919307, 0),
    (86864, 0), (14, 0)], [(0, 6191048419), (282205, 0), (139, 0)]], 3, 4⟩, 72057594037927936, 2642365905860,
    492950176056, ⟨[[(9627897166267, 0), (22327606779, 0), (14432374, 0), (0, 10720), (0, 24)], [(0, 14151616427),
    (0, 42376182), (0, 22074), (0, 38)], [(26935577, 0), (60483, 0), (56, 0)], [(0, 48884), (0, 71)]], 3, 4⟩,
    17592186044416, 10516205,
    8276194090025882484569421395538485923598843878419937259774630416844056526000733439921948933021597515153154093116349682179806077,
    lc0⟩) (.leaf ⟨743, 16, 2175, 262, 16, 1708, ⟨[[(24546078346878976, 0), (0, 3279161694876394), (33725664334, 0),
    (0, 2522526), (0, 220)], [(12595697679833032, 0), (0, 3949056731469), (93412538, 0), (414, 0)], [(0,
    13321687839537), (515225744, 0), (187862, 0), (22, 0)], [(19070169248, 0), (0, 75765), (97, 0)]], 3, 4⟩, ⟨[[(0,
    4941666962731008), (0, 2054513015992403), (0, 17750609920), (0, 5501663), (0, 606)], [(0, 28163939590969368), (0,
    381518128924), (0, 46718038), (0, 9058), (0, 1)], [(13771366255750, 0), (769027644, 0), (104469, 0), (16, 0)],
    [(0, 5994496453), (190719, 0), (112, 0)]], 3, 4⟩, 72057594037927936, 2419279378530, 431485037190,
    ⟨[[(9171385665564, 0), (21131050309, 0), (14210235, 0), (0, 9393), (0, 11)], [(0, 13255180614), (0, 40553197),
    (0, 19116), (0, 32)], [(25551166, 0), (57803, 0), (40, 0)], [(0, 47087), (0, 65)]], 3, 4⟩, 17592186044416,
    9942224,
    6750815612834427333796982115797546302271296134305288567447216711566717676455148505219215132306969281130544286347375264834270469,
    lc0⟩)) (.sx (.leaf ⟨758, 16, 2308, 257, 16, 1660, ⟨[[(0, 19050853162778624), (0, 3272749043717112), (27589743835,
    0), (0, 3175082), (0, 283)], [(12558247851838644, 0), (0, 4154191696905), (80771634, 0), (0, 1516)], [(0,
    16500423556819), (741566690, 0), (219186, 0), (26, 0)], [(22534681026, 0), (348350, 0), (183, 0)]], 3, 4⟩,
    ⟨[[(219249498361856, 0), (0, 1999168900476531), (0, 23518360037), (0, 6168196), (0, 664)], [(0,
    28759918446356084), (0, 494046774599), (0, 69953458), (0, 12100), (0, 1)], [(14520911814663, 0), (815557440, 0),
    (109030, 0), (17, 0)], [(0, 5954662826), (431743, 0), (167, 0)]], 3, 4⟩, 72057594037927936, 2942659123295,
    453187404624, ⟨[[(9628144693974, 0), (23063218494, 0), (15597741, 0), (0, 9137), (0, 10)], [(0, 14090748661), (0,
    42804954), (0, 21994), (0, 46)], [(26814866, 0), (58657, 0), (50, 0)], [(0, 48380), (0, 68)]], 3, 4⟩,
    17592186044416, 10024392,
    9046954735357007835797560030553775070560719189811831594758425572720287548635618783793234039490306669032479172483353372595139575,
    lc0⟩) (.leaf ⟨754, 16, 2277, 245, 16, 1691, ⟨[[(29059316678164480, 0), (0, 3399613092507455), (30959864108, 0),
    (0, 3147934), (0, 276)], [(11135707168814979, 0), (0, 4035653354760), (98713316, 0), (797, 0)], [(0,
    13622988813117), (755735510, 0), (235641, 0), (29, 0)], [(19952202032, 0), (34553, 0), (126, 0)]], 3, 4⟩,
    ⟨[[(5922474392428544, 0), (0, 2056144446204238), (0, 26742609591), (0, 6769442), (0, 720)], [(0,
    28086080551588517), (0, 431379628711), (0, 61093090), (0, 10785), (0, 1)], [(14044718840528, 0), (878256048, 0),
    (130246, 0), (20, 0)], [(0, 5810302549), (311270, 0), (134, 0)]], 3, 4⟩, 72057594037927936, 2727907991303,
    367651627615, ⟨[[(9169189677174, 0), (21871369227, 0), (15337118, 0), (0, 8515), (0, 3)], [(0, 13250037045), (0,
    41200132), (0, 18993), (0, 33)], [(25674742, 0), (56471, 0), (39, 0)], [(0, 47232), (0, 62)]], 3, 4⟩,
    17592186044416, 9645240,
    5718086100770831997922686057631610718829211870519059998297382522547035700409582279733134209354131922917991364027635166530873191,
    lc0⟩)))
theorem c94 : checkR job con0 true ⟨7, 9, 7, 9, 13, 17⟩ 1 28336 t94 201 21 320 30745 251 32000 = true := by decide +kernel

end PyX.Kron.V3b
