import Verif.Lemmas.T2bJob

/-!
# Temperature from pressure and enthalpy in subregion 2b, part C of the certificate
-/

namespace PyX.Kron.T2b

set_option Elab.async false

def t47 : CTree :=
  .sy (.sx (.sy (.out ⟨1372, 16, 81, 1591, 16, 1199, ⟨[[(0, 68719476736)], [(347892350976, 0)]], 1, 1⟩,
    ⟨[[(260004724443, 0), (0, 2483949292188)], [(0, 184039495277), (0, 2906135100)]], 1, 1⟩, 1099511627776, 0,
    467534840423, ⟨[], 0, 0⟩, 0, 0, 0, lc0⟩ 0 1 1241232273964) (.out ⟨1372, 16, 81, 1418, 16, 1078, ⟨[[(0,
    68719476736)], [(347892350976, 0)]], 1, 1⟩, ⟨[[(0, 136205672200), (0, 2461577732751)], [(0, 183588594428), (0,
    3499890849)]], 1, 1⟩, 1099511627776, 0, 598063201113, ⟨[], 0, 0⟩, 0, 0, 0, lc0⟩ 0 1 1235130792888)) (.sy (.out
    ⟨1402, 16, 81, 1397, 16, 1064, ⟨[[(343597383680, 0)], [(347892350976, 0)]], 1, 1⟩, ⟨[[(70628650713, 0), (0,
    2493687102716)], [(0, 181400657817), (0, 3530235168)]], 1, 1⟩, 1099511627776, 0, 602405572275, ⟨[], 0, 0⟩, 0, 0,
    0, lc0⟩ 0 1 1269145133256) (.sx (.out ⟨2789, 16, 162, 1747, 16, 1340, ⟨[[(481036337152, 0)], [(347892350976,
    0)]], 1, 1⟩, ⟨[[(0, 199014833638), (0, 3420044883712)], [(0, 125581919300), (0, 2874845775)]], 1, 1⟩,
    1099511627776, 0, 554544762116, ⟨[], 0, 0⟩, 0, 0, 0, lc0⟩ 0 1 1242866207572) (.sy (.out ⟨2820, 16, 162, 2451, 16,
    1887, ⟨[[(0, 206158430208)], [(347892350976, 0)]], 1, 1⟩, ⟨[[(0, 116366676090), (0, 2527086148150)], [(0,
    183390959814), (0, 2250609456)]], 1, 1⟩, 1099511627776, 0, 349481471972, ⟨[], 0, 0⟩, 0, 0, 0, lc0⟩ 0 1
    1249582470854) (.out ⟨2820, 16, 162, 2248, 16, 1741, ⟨[[(0, 206158430208)], [(347892350976, 0)]], 1, 1⟩,
    ⟨[[(51740587854, 0), (0, 2519455430580)], [(0, 182992325644), (0, 2541530173)]], 1, 1⟩, 1099511627776, 0,
    401882343245, ⟨[], 0, 0⟩, 0, 0, 0, lc0⟩ 0 1 1224981779720))))) (.sx (.sy (.sx (.sy (.out ⟨2729, 16, 162, 2708,
    16, 2068, ⟨[[(0, 343597383680)], [(347892350976, 0)]], 1, 1⟩, ⟨[[(122549964116, 0), (0, 2483063594215)], [(0,
    186833059461), (0, 1970789843)]], 1, 1⟩, 1099511627776, 0, 300857350123, ⟨[], 0, 0⟩, 0, 0, 0, lc0⟩ 0 1
    1217443606932) (.out ⟨2729, 16, 162, 2517, 16, 1932, ⟨[[(0, 343597383680)], [(347892350976, 0)]], 1, 1⟩, ⟨[[(0,
    61289768330), (0, 2475815491598)], [(0, 186649812580), (0, 2209538036)]], 1, 1⟩, 1099511627776, 0, 343976274554,
    ⟨[], 0, 0⟩, 0, 0, 0, lc0⟩ 0 1 1203616141325)) (.out ⟨2759, 16, 162, 1630, 16, 1256, ⟨[[(68719476736, 0)],
    [(347892350976, 0)]], 1, 1⟩, ⟨[[(0, 28817045357), (0, 3391595790449)], [(0, 126307278591), (0, 3221034549)]], 1,
    1⟩, 1099511627776, 0, 630596488479, ⟨[], 0, 0⟩, 0, 0, 0, lc0⟩ 0 1 1208724930114)) (.sx (.out ⟨2729, 16, 162,
    1510, 16, 1169, ⟨[[(0, 343597383680)], [(347892350976, 0)]], 1, 1⟩, ⟨[[(0, 42009343464), (0, 3362155392764)],
    [(0, 126935745995), (0, 3610888883)]], 1, 1⟩, 1099511627776, 0, 715834170570, ⟨[], 0, 0⟩, 0, 0, 0, lc0⟩ 0 1
    1170561176955) (.sy (.out ⟨2759, 16, 162, 2082, 16, 1619, ⟨[[(68719476736, 0)], [(347892350976, 0)]], 1, 1⟩,
    ⟨[[(38379521608, 0), (0, 2477804718869)], [(0, 184701808593), (0, 2840436691)]], 1, 1⟩, 1099511627776, 0,
    457358202745, ⟨[], 0, 0⟩, 0, 0, 0, lc0⟩ 0 1 1167093798770) (.skip)))) (.sy (.sx (.sy (.out ⟨2789, 16, 162, 2267,
    16, 1754, ⟨[[(481036337152, 0)], [(347892350976, 0)]], 1, 1⟩, ⟨[[(181168437680, 0), (0, 2501521882896)], [(0,
    184027821697), (0, 2528030995)]], 1, 1⟩, 1099511627776, 0, 400115552967, ⟨[], 0, 0⟩, 0, 0, 0, lc0⟩ 0 1
    1210307028585) (.out ⟨2789, 16, 162, 2058, 16, 1602, ⟨[[(481036337152, 0)], [(347892350976, 0)]], 1, 1⟩, ⟨[[(0,
    355264781778), (0, 2494003442474)], [(0, 183512542493), (0, 2860395176)]], 1, 1⟩, 1099511627776, 0, 460149372422,
    ⟨[], 0, 0⟩, 0, 0, 0, lc0⟩ 0 1 1180002006972)) (.skip)) (.skip)))
theorem c47 : checkC job ⟨6, 8, 8, 10, 9, 13⟩ 3 100 lims t47 2192 48 128 183 3 512 = true := by decide +kernel

def t48 : CTree :=
  .sy (.sx (.sx (.sx (.sy (.out ⟨2850, 16, 162, 1715, 16, 1318, ⟨[[(206158430208, 0)], [(347892350976, 0)]], 1, 1⟩,
    ⟨[[(174705156328, 0), (0, 3450430779935)], [(0, 123550259624), (0, 2879754634)]], 1, 1⟩, 1099511627776, 0,
    564108504520, ⟨[], 0, 0⟩, 0, 0, 0, lc0⟩ 0 1 1274366618387) (.sy (.out ⟨2850, 16, 162, 2230, 16, 1729,
    ⟨[[(206158430208, 0)], [(347892350976, 0)]], 1, 1⟩, ⟨[[(467613357008, 0), (0, 2535732108363)], [(0,
    181844676443), (0, 2548775092)]], 1, 1⟩, 1099511627776, 0, 402637390938, ⟨[], 0, 0⟩, 0, 0, 0, lc0⟩ 0 1
    1238178240372) (.skip))) (.sy (.out ⟨2881, 16, 162, 1567, 16, 1212, ⟨[[(0, 481036337152)], [(347892350976, 0)]],
    1, 1⟩, ⟨[[(0, 74865645131), (0, 3454349593383)], [(0, 122275525090), (0, 3241772310)]], 1, 1⟩, 1099511627776, 0,
    654425430151, ⟨[], 0, 0⟩, 0, 0, 0, lc0⟩ 0 1 1268579212629) (.skip))) (.skip)) (.skip)) (.skip)
theorem c48 : checkC job ⟨6, 8, 8, 10, 9, 13⟩ 3 100 lims t48 1168 48 64 183 3 512 = true := by decide +kernel

def t49 : CTree :=
  .sx (.sx (.sy (.sx (.sy (.out ⟨1311, 16, 81, 1290, 16, 986, ⟨[[(206158430208, 0)], [(347892350976, 0)]], 1, 1⟩,
    ⟨[[(0, 9604453226), (0, 2373251520797)], [(0, 187125159251), (0, 4164740665)]], 1, 1⟩, 1099511627776, 0,
    754194766106, ⟨[], 0, 0⟩, 0, 0, 0, lc0⟩ 0 1 1149319815298) (.sx (.sy (.out ⟨2607, 16, 162, 2451, 16, 1882,
    ⟨[[(206158430208, 0)], [(347892350976, 0)]], 1, 1⟩, ⟨[[(233414012505, 0), (0, 2401042483926)], [(0,
    190885156891), (0, 2363021839)]], 1, 1⟩, 1099511627776, 0, 375548452909, ⟨[], 0, 0⟩, 0, 0, 0, lc0⟩ 0 1
    1127194500800) (.out ⟨2607, 16, 162, 2247, 16, 1735, ⟨[[(206158430208, 0)], [(347892350976, 0)]], 1, 1⟩,
    ⟨[[(221275624566, 0), (0, 2392695868158)], [(0, 190433227283), (0, 2662146688)]], 1, 1⟩, 1099511627776, 0,
    430306491570, ⟨[], 0, 0⟩, 0, 0, 0, lc0⟩ 0 1 1106719589218)) (.sy (.sy (.out ⟨2638, 16, 162, 2927, 16, 2260,
    ⟨[[(0, 481036337152)], [(347892350976, 0)]], 1, 1⟩, ⟨[[(0, 71234312060), (0, 1561779747100)], [(0, 245309167260),
    (0, 1700844511)]], 1, 1⟩, 1099511627776, 0, 355508383180, ⟨[], 0, 0⟩, 0, 0, 0, lc0⟩ 0 1 1125957350812) (.out
    ⟨2638, 16, 162, 2793, 16, 2163, ⟨[[(0, 481036337152)], [(347892350976, 0)]], 1, 1⟩, ⟨[[(0, 23125594256), (0,
    1559836944074)], [(0, 245074964697), (0, 1807688766)]], 1, 1⟩, 1099511627776, 0, 380330347393, ⟨[], 0, 0⟩, 0, 0,
    0, lc0⟩ 0 1 1112816574614)) (.out ⟨2638, 16, 162, 1996, 16, 1553, ⟨[[(0, 481036337152)], [(347892350976, 0)]], 1,
    1⟩, ⟨[[(0, 189966441069), (0, 2401060598004)], [(0, 188638202953), (0, 3054401526)]], 1, 1⟩, 1099511627776, 0,
    500783064853, ⟨[], 0, 0⟩, 0, 0, 0, lc0⟩ 0 1 1089379309620)))) (.sy (.sy (.sx (.out ⟨2668, 16, 162, 2378, 16,
    1831, ⟨[[(0, 68719476736)], [(347892350976, 0)]], 1, 1⟩, ⟨[[(147618264086, 0), (0, 2434775031286)], [(0,
    188601181309), (0, 2434703278)]], 1, 1⟩, 1099511627776, 0, 386529315930, ⟨[], 0, 0⟩, 0, 0, 0, lc0⟩ 0 1
    1155351395449) (.out ⟨2698, 16, 162, 2138, 16, 1658, ⟨[[(343597383680, 0)], [(347892350976, 0)]], 1, 1⟩, ⟨[[(0,
    164328747947), (0, 2442735158042)], [(0, 186901936022), (0, 2782249030)]], 1, 1⟩, 1099511627776, 0, 448759144077,
    ⟨[], 0, 0⟩, 0, 0, 0, lc0⟩ 0 1 1143383063971)) (.sx (.out ⟨2668, 16, 162, 2172, 16, 1682, ⟨[[(0, 68719476736)],
    [(347892350976, 0)]], 1, 1⟩, ⟨[[(0, 104654892572), (0, 2426867014924)], [(0, 188137868722), (0, 2747712945)]], 1,
    1⟩, 1099511627776, 0, 443535386318, ⟨[], 0, 0⟩, 0, 0, 0, lc0⟩ 0 1 1131542334488) (.out ⟨2698, 16, 162, 1925, 16,
    1503, ⟨[[(343597383680, 0)], [(347892350976, 0)]], 1, 1⟩, ⟨[[(358944307082, 0), (0, 2435707449520)], [(0,
    186342677435), (0, 3143835610)]], 1, 1⟩, 1099511627776, 0, 514499130740, ⟨[], 0, 0⟩, 0, 0, 0, lc0⟩ 0 1
    1106519937646))) (.sy (.sx (.out ⟨2668, 16, 162, 1959, 16, 1527, ⟨[[(0, 68719476736)], [(347892350976, 0)]], 1,
    1⟩, ⟨[[(187411023481, 0), (0, 2418641848659)], [(0, 187508314291), (0, 3102110492)]], 1, 1⟩, 1099511627776, 0,
    508148545508, ⟨[], 0, 0⟩, 0, 0, 0, lc0⟩ 0 1 1097738571465) (.skip)) (.skip)))) (.sx (.sy (.sx (.sy (.sy (.out
    ⟨2607, 16, 162, 2704, 16, 2097, ⟨[[(206158430208, 0)], [(347892350976, 0)]], 1, 1⟩, ⟨[[(0, 171571409588), (0,
    1543934450409)], [(0, 245847414392), (0, 1885119373)]], 1, 1⟩, 1099511627776, 0, 402501723257, ⟨[], 0, 0⟩, 0, 0,
    0, lc0⟩ 0 1 1087042990176) (.out ⟨2607, 16, 162, 2568, 16, 1998, ⟨[[(206158430208, 0)], [(347892350976, 0)]], 1,
    1⟩, ⟨[[(0, 26570338891), (0, 1542537588216)], [(0, 245625535226), (0, 2003388993)]], 1, 1⟩, 1099511627776, 0,
    430313843010, ⟨[], 0, 0⟩, 0, 0, 0, lc0⟩ 0 1 1070373678569)) (.skip)) (.skip)) (.skip)) (.skip))) (.sy (.sy (.sx
    (.sy (.sx (.out ⟨2729, 16, 162, 1894, 16, 1481, ⟨[[(0, 343597383680)], [(347892350976, 0)]], 1, 1⟩,
    ⟨[[(313394533350, 0), (0, 2452211027593)], [(0, 185140675160), (0, 3179323214)]], 1, 1⟩, 1099511627776, 0,
    519801689275, ⟨[], 0, 0⟩, 0, 0, 0, lc0⟩ 0 1 1116571061618) (.skip)) (.skip)) (.skip)) (.skip)) (.skip))) (.skip)
theorem c49 : checkC job ⟨6, 8, 8, 10, 9, 13⟩ 3 100 lims t49 560 48 32 189 3 512 = true := by decide +kernel

def t50 : CTree :=
  .skip
theorem c50 : checkC job ⟨6, 8, 8, 10, 9, 13⟩ 3 100 lims t50 656 48 32 93 3 256 = true := by decide +kernel

def t51 : CTree :=
  .skip
theorem c51 : checkC job ⟨6, 8, 8, 10, 9, 13⟩ 3 100 lims t51 400 48 16 45 3 128 = true := by decide +kernel

def t52 : CTree :=
  .sx (.leaf ⟨535, 16, 20, 810, 16, 782, ⟨[[], [(343597383680, 0)]], 3, 4⟩, ⟨[[(0, 298912455573), (3850521850567, 0),
    (9480777279, 0), (189370185, 0), (1810599, 0)], [(106414853007, 0), (1684827584, 0), (22842975, 0), (323065, 0),
    (4196, 0)], [(10881319, 0), (484271, 0), (12009, 0), (208, 0), (3, 0)], [(0, 673), (13, 0)]], 3, 4⟩,
    1099511627776, 0, 15238766, ⟨[[(53508004747587, 0), (0, 43015975875), (65616112, 0), (108103, 0), (1903, 0)],
    [(13339093713, 0), (20347804, 0), (0, 12034), (1391, 0), (44, 0)], [(0, 8050279), (0, 28099), (352, 0), (16, 0)],
    [(5520, 0), (66, 0), (2, 0)]], 3, 4⟩, 68719476736, 82945547,
    2014736329676274562322451881001471124260056642487466884865900725314538318124336442278322110464, lc0⟩) (.sy (.leaf
    ⟨565, 16, 20, 1234, 16, 1186, ⟨[[], [(343597383680, 0)]], 3, 4⟩, ⟨[[(7288282266, 0), (3020243582887, 0),
    (4099904212, 0), (39700201, 0), (194236, 0)], [(160565474157, 0), (1292782562, 0), (8936408, 0), (63475, 0),
    (412, 0)], [(15059544, 0), (340244, 0), (4152, 0), (34, 0)], [(0, 1622), (0, 16), (0, 1)]], 3, 4⟩, 1099511627776,
    0, 12036596, ⟨[[(53747127767991, 0), (0, 27655138770), (29472125, 0), (65801, 0), (965, 0)], [(12939741919, 0),
    (12587865, 0), (22176, 0), (1086, 0), (18, 0)], [(0, 7641515), (0, 10465), (405, 0), (10, 0)], [(5480, 0), (76,
    0), (2, 0)]], 3, 4⟩, 68719476736, 22028226,
    3107609012539740180340466113725339566654740744826364223282921099531554373832459832766311074723, lc0⟩) (.sx (.sy
    (.leaf ⟨1143, 16, 41, 2466, 16, 2353, ⟨[[(0, 137438953472)], [(352187318272, 0)]], 3, 4⟩, ⟨[[(0, 298422945567),
    (3002548490244, 0), (2195743981, 0), (10355063, 0), (26262, 0)], [(164438731528, 0), (674038065, 0), (2386276,
    0), (8638, 0), (30, 0)], [(8329618, 0), (94489, 0), (582, 0), (3, 0)], [(0, 375), (0, 2)]], 3, 4⟩, 1099511627776,
    0, 1692971, ⟨[[(53404314200844, 0), (0, 13713475784), (7972003, 0), (12526, 0), (91, 0)], [(6424737127, 0),
    (3278080, 0), (6336, 0), (105, 0), (1, 0)], [(0, 1864847), (0, 387), (40, 0)], [(738, 0), (7, 0)]], 3, 4⟩,
    68719476736, 1525576,
    2063263714337198261876527273396517919255688256658874067683052042764508374692323810458291464614, lc0⟩) (.sx (.leaf
    ⟨2270, 16, 82, 3211, 16, 3048, ⟨[[(412316860416, 0)], [(352187318272, 0)]], 3, 4⟩, ⟨[[(0, 456498912145),
    (3903215256133, 0), (3014574536, 0), (13981045, 0), (36484, 0)], [(108902884754, 0), (452566058, 0), (1630947,
    0), (5997, 0), (22, 0)], [(2896733, 0), (32991, 0), (205, 0), (1, 0)], [(0, 58)]], 3, 4⟩, 1099511627776, 0,
    268411, ⟨[[(53177806736821, 0), (0, 10444743822), (5047452, 0), (7793, 0), (43, 0)], [(3249025800, 0), (1346265,
    0), (3078, 0), (33, 0)], [(0, 470628), (122, 0), (8, 0)], [(105, 0), (1, 0)]], 3, 4⟩, 68719476736, 523700,
    2859032553333508945094038903737835452755527631924316896592743519488620354003302683797518030587, lc0⟩) (.sy (.leaf
    ⟨2301, 16, 82, 4902, 16, 4648, ⟨[[(137438953472, 0)], [(352187318272, 0)]], 3, 4⟩, ⟨[[(293101097700, 0),
    (3002248212069, 0), (1184875113, 0), (2732846, 0), (3587, 0)], [(165871333724, 0), (346101986, 0), (626247, 0),
    (1153, 0), (2, 0)], [(4315331, 0), (24628, 0), (76, 0)], [(0, 101)]], 3, 4⟩, 1099511627776, 0, 317034,
    ⟨[[(53241061788497, 0), (0, 6797534735), (2257593, 0), (2707, 0), (10, 0)], [(3225033457, 0), (907442, 0), (1734,
    0), (11, 0)], [(0, 459949), (183, 0), (4, 0)], [(110, 0), (1, 0)]], 3, 4⟩, 68719476736, 186275,
    3446565969419006944935706363231102163112346116332751973008726186179473627436535340288625958510, lc0⟩) (.out
    ⟨2435, 16, 81, 6975, 16, 4524, ⟨[[(68719476736, 0)], [(347892350976, 0)]], 1, 1⟩, ⟨[[(0, 74328617251), (0,
    2936283317036)], [(0, 163489595063), (0, 344306047)]], 1, 1⟩, 1099511627776, 0, 21635729368, ⟨[], 0, 0⟩, 0, 0, 0,
    lc0⟩ 0 1 175318967358)))) (.sy (.sx (.sy (.leaf ⟨2332, 16, 82, 4927, 16, 4689, ⟨[[(0, 137438953472)],
    [(352187318272, 0)]], 3, 4⟩, ⟨[[(0, 118159126345), (3033532369771, 0), (1156550450, 0), (2695603, 0), (3460, 0)],
    [(164011476403, 0), (338903357, 0), (605182, 0), (1098, 0), (2, 0)], [(4035956, 0), (22987, 0), (70, 0)], [(0,
    110)]], 3, 4⟩, 1099511627776, 0, 352905, ⟨[[(53463733370080, 0), (0, 6790274221), (2130826, 0), (2310, 0), (8,
    0)], [(3180773474, 0), (851898, 0), (1384, 0), (10, 0)], [(0, 452751), (98, 0), (4, 0)], [(100, 0), (1, 0)]], 3,
    4⟩, 68719476736, 197012,
    2490336886973123165955547132783910231557045335079228526245146685206893010780123324441994606656, lc0⟩) (.out
    ⟨2465, 16, 81, 7055, 16, 4564, ⟨[[(481036337152, 0)], [(347892350976, 0)]], 1, 1⟩, ⟨[[(0, 330661323382), (0,
    2966458988799)], [(0, 161639888213), (0, 337054502)]], 1, 1⟩, 1099511627776, 0, 20701232191, ⟨[], 0, 0⟩, 0, 0, 0,
    lc0⟩ 0 1 122867155552)) (.out ⟨2496, 16, 81, 4565, 16, 2956, ⟨[[(0, 206158430208)], [(347892350976, 0)]], 1, 1⟩,
    ⟨[[(330344025951, 0), (0, 3875324694123)], [(0, 104534052494), (0, 437565436)]], 1, 1⟩, 1099511627776, 0,
    36276945922, ⟨[], 0, 0⟩, 0, 0, 0, lc0⟩ 0 1 194232481192)) (.out ⟨1225, 16, 40, 3442, 16, 2237, ⟨[[],
    [(343597383680, 0)]], 1, 1⟩, ⟨[[(349747470358, 0), (0, 2945770069058)], [(0, 161877219587), (0, 687450812)]], 1,
    1⟩, 1099511627776, 0, 45102447212, ⟨[], 0, 0⟩, 0, 0, 0, lc0⟩ 0 1 299796859279))))
theorem c52 : checkC job ⟨6, 8, 8, 10, 9, 13⟩ 3 100 lims t52 944 48 32 99 3 512 = true := by decide +kernel

def t53 : CTree :=
  .sx (.sy (.sx (.leaf ⟨1081, 16, 41, 1614, 16, 1533, ⟨[[(412316860416, 0)], [(352187318272, 0)]], 3, 4⟩, ⟨[[(0,
    286214254268), (3825176696288, 0), (5695325900, 0), (53217989, 0), (277375, 0)], [(111593277360, 0), (922659647,
    0), (6627099, 0), (49005, 0), (355, 0)], [(6549210, 0), (148254, 0), (1876, 0), (18, 0)], [(0, 116), (3, 0)]], 3,
    4⟩, 1099511627776, 0, 1813365, ⟨[[(52841970820552, 0), (0, 21092340870), (18865941, 0), (36927, 0), (397, 0)],
    [(6703405507, 0), (5338893, 0), (11635, 0), (319, 0), (4, 0)], [(0, 2016272), (0, 1213), (84, 0), (1, 0)], [(822,
    0), (10, 0)]], 3, 4⟩, 68719476736, 5802739,
    2422791201678005162847263224943409705618165368803626264360159276281278298518954877297982531687, lc0⟩) (.sy (.leaf
    ⟨1112, 16, 41, 2443, 16, 2314, ⟨[[(137438953472, 0)], [(352187318272, 0)]], 3, 4⟩, ⟨[[(0, 417589100068),
    (2940773960289, 0), (2298754962, 0), (10614744, 0), (28081, 0)], [(168207519695, 0), (702330189, 0), (2549879,
    0), (9475, 0), (35, 0)], [(9490030, 0), (108112, 0), (680, 0), (3, 0)], [(0, 280)]], 3, 4⟩, 1099511627776, 0,
    1760972, ⟨[[(52954891464606, 0), (0, 13748160047), (8789654, 0), (17024, 0), (122, 0)], [(6604769863, 0),
    (3628987, 0), (10379, 0), (146, 0), (1, 0)], [(0, 1938550), (583, 0), (57, 0), (1, 0)], [(879, 0), (10, 0)]], 3,
    4⟩, 68719476736, 1661303,
    3800787567933932134284936228263698503509529982705321925471579689062294787740566358701365962947, lc0⟩) (.sx (.sy
    (.leaf ⟨2209, 16, 82, 4881, 16, 4608, ⟨[[(0, 137438953472)], [(352187318272, 0)]], 3, 4⟩, ⟨[[(0, 284071456232),
    (2932037265443, 0), (1185654721, 0), (2712998, 0), (3664, 0)], [(170201780227, 0), (358631175, 0), (658966, 0),
    (1240, 0), (2, 0)], [(4983217, 0), (28476, 0), (90, 0)], [(0, 62)]], 3, 4⟩, 1099511627776, 0, 316535,
    ⟨[[(52794349677363, 0), (0, 6845034458), (2307558, 0), (2543, 0), (9, 0)], [(3332004155, 0), (955531, 0), (1678,
    0), (11, 0)], [(0, 487858), (171, 0), (4, 0)], [(120, 0), (1, 0)]], 3, 4⟩, 68719476736, 145285,
    3068238456108064710950770699580987083477735819465180399673954209971626853467626971974824637983, lc0⟩) (.out
    ⟨2344, 16, 81, 6893, 16, 4484, ⟨[[(0, 68719476736)], [(347892350976, 0)]], 1, 1⟩, ⟨[[(428795056196, 0), (0,
    2867270186602)], [(0, 167738928711), (0, 356807642)]], 1, 1⟩, 1099511627776, 0, 23239467290, ⟨[], 0, 0⟩, 0, 0, 0,
    lc0⟩ 0 1 162011753383)) (.out ⟨2374, 16, 81, 4509, 16, 2936, ⟨[[(343597383680, 0)], [(347892350976, 0)]], 1, 1⟩,
    ⟨[[(178966596374, 0), (0, 3790171846563)], [(0, 109752830420), (0, 469190423)]], 1, 1⟩, 1099511627776, 0,
    39065007313, ⟨[], 0, 0⟩, 0, 0, 0, lc0⟩ 0 1 230936282930)))) (.sx (.sy (.sx (.leaf ⟨2147, 16, 82, 3219, 16, 3033,
    ⟨[[(412316860416, 0)], [(352187318272, 0)]], 3, 4⟩, ⟨[[(0, 71938127136), (3814713129832, 0), (3103456752, 0),
    (14165990, 0), (38786, 0)], [(114292074302, 0), (483460456, 0), (1788578, 0), (6809, 0), (26, 0)], [(3592221, 0),
    (41055, 0), (265, 0), (1, 0)], [(0, 20), (1, 0)]], 3, 4⟩, 1099511627776, 0, 382616, ⟨[[(52519877089813, 0), (0,
    10423338433), (5260031, 0), (7778, 0), (41, 0)], [(3403024483, 0), (1470020, 0), (3362, 0), (35, 0)], [(0,
    509184), (180, 0), (9, 0)], [(124, 0), (1, 0)]], 3, 4⟩, 68719476736, 571742,
    3103563727933738382570420621577031757783742532875630788510901991094416793946399800214547455115, lc0⟩) (.out
    ⟨2314, 16, 81, 4529, 16, 2950, ⟨[[(0, 481036337152)], [(347892350976, 0)]], 1, 1⟩, ⟨[[(460089889498, 0), (0,
    3755831603930)], [(0, 111834604075), (0, 477910592)]], 1, 1⟩, 1099511627776, 0, 39147571578, ⟨[], 0, 0⟩, 0, 0, 0,
    lc0⟩ 0 1 167766360391)) (.out ⟨1135, 16, 40, 3360, 16, 2196, ⟨[[], [(343597383680, 0)]], 1, 1⟩, ⟨[[(128487545976,
    0), (0, 2807733381523)], [(0, 170333793465), (0, 738440367)]], 1, 1⟩, 1099511627776, 0, 51939054531, ⟨[], 0, 0⟩,
    0, 0, 0, lc0⟩ 0 1 258409278987)) (.out ⟨1165, 16, 40, 2191, 16, 1435, ⟨[[], [(343597383680, 0)]], 1, 1⟩,
    ⟨[[(49937728281, 0), (0, 3742294996434)], [(0, 111221847642), (0, 974533660)]], 1, 1⟩, 1099511627776, 0,
    89587613734, ⟨[], 0, 0⟩, 0, 0, 0, lc0⟩ 0 1 400209938336))) (.out ⟨605, 16, 20, 1068, 16, 701, ⟨[[],
    [(343597383680, 0)]], 1, 1⟩, ⟨[[(327145980582, 0), (0, 3750888433704)], [(0, 107695142109), (0, 1903628220)]], 1,
    1⟩, 1099511627776, 0, 205470646748, ⟨[], 0, 0⟩, 0, 0, 0, lc0⟩ 0 1 579780346898)
theorem c53 : checkC job ⟨6, 8, 8, 10, 9, 13⟩ 3 100 lims t53 944 48 32 105 3 512 = true := by decide +kernel

def t54 : CTree :=
  .sy (.sx (.sy (.sx (.sy (.leaf ⟨1204, 16, 41, 2464, 16, 2356, ⟨[[(412316860416, 0)], [(352187318272, 0)]], 3, 4⟩,
    ⟨[[(0, 33601902040), (3080164964080, 0), (2268398010, 0), (10708102, 0), (26724, 0)], [(159631222697, 0),
    (652219039, 0), (2290095, 0), (8148, 0), (27, 0)], [(7033096, 0), (80100, 0), (478, 0), (2, 0)], [(0, 518), (0,
    5)]], 3, 4⟩, 1099511627776, 0, 1593254, ⟨[[(53859099265924, 0), (0, 13582025996), (8212922, 0), (17753, 0), (131,
    0)], [(6188777401, 0), (3198129, 0), (9982, 0), (144, 0), (1, 0)], [(0, 1732398), (534, 0), (52, 0), (1, 0)],
    [(717, 0), (8, 0)]], 3, 4⟩, 68719476736, 1702589,
    3918739866258230883391983487681249042409567426199884456438926631438380806482541205092606172440, lc0⟩) (.sx (.sy
    (.leaf ⟨2393, 16, 82, 4925, 16, 4692, ⟨[[(412316860416, 0)], [(352187318272, 0)]], 3, 4⟩, ⟨[[(166806570050, 0),
    (3072034914415, 0), (1174439116, 0), (2738329, 0), (3484, 0)], [(161568357225, 0), (333214370, 0), (592255, 0),
    (1065, 0), (2, 0)], [(3704907, 0), (21127, 0), (63, 0)], [(0, 128), (0, 1)]], 3, 4⟩, 1099511627776, 0, 389038,
    ⟨[[(53690850140039, 0), (0, 6756210145), (2182647, 0), (2749, 0), (10, 0)], [(3122224577, 0), (851996, 0), (1691,
    0), (11, 0)], [(0, 435239), (172, 0), (4, 0)], [(100, 0), (1, 0)]], 3, 4⟩, 68719476736, 148960,
    3420620545754116002272960153539204553518638091894911786178509182230709680894495410003647554730, lc0⟩) (.out
    ⟨2526, 16, 81, 7065, 16, 4568, ⟨[[(206158430208, 0)], [(347892350976, 0)]], 1, 1⟩, ⟨[[(495980426580, 0), (0,
    3004858993531)], [(0, 159265867774), (0, 331440905)]], 1, 1⟩, 1099511627776, 0, 20078959519, ⟨[], 0, 0⟩, 0, 0, 0,
    lc0⟩ 0 1 179349189119)) (.out ⟨2557, 16, 81, 4553, 16, 2946, ⟨[[(0, 481036337152)], [(347892350976, 0)]], 1, 1⟩,
    ⟨[[(9036983672, 0), (0, 3907513679872)], [(0, 102528126678), (0, 428098346)]], 1, 1⟩, 1099511627776, 0,
    35992658259, ⟨[], 0, 0⟩, 0, 0, 0, lc0⟩ 0 1 243363756432))) (.out ⟨1285, 16, 40, 2254, 16, 1459, ⟨[[],
    [(343597383680, 0)]], 1, 1⟩, ⟨[[(0, 499102641586), (0, 3912276553271)], [(0, 100935085308), (0, 844643084)]], 1,
    1⟩, 1099511627776, 0, 76949306582, ⟨[], 0, 0⟩, 0, 0, 0, lc0⟩ 0 1 312342443312)) (.out ⟨635, 16, 20, 1677, 16,
    1094, ⟨[[], [(343597383680, 0)]], 1, 1⟩, ⟨[[(74466024264, 0), (0, 2963398558529)], [(0, 158579805129), (0,
    1366984213)]], 1, 1⟩, 1099511627776, 0, 97644679356, ⟨[], 0, 0⟩, 0, 0, 0, lc0⟩ 0 1 535951023575)) (.out ⟨665, 16,
    20, 1060, 16, 694, ⟨[[], [(343597383680, 0)]], 1, 1⟩, ⟨[[(380442495732, 0), (0, 3883145435729)], [(0,
    99752371831), (0, 1736728785)]], 1, 1⟩, 1099511627776, 0, 197210704514, ⟨[], 0, 0⟩, 0, 0, 0, lc0⟩ 0 1
    801430284354)) (.out ⟨325, 16, 10, 752, 16, 500, ⟨[[], [(343597383680, 0)]], 1, 1⟩, ⟨[[(0, 269578264959), (0,
    2879422581318)], [(0, 158649015875), (0, 2949803040)]], 1, 1⟩, 1099511627776, 0, 268888644453, ⟨[], 0, 0⟩, 0, 0,
    0, lc0⟩ 0 1 1180050495749)
theorem c54 : checkC job ⟨6, 8, 8, 10, 9, 13⟩ 3 100 lims t54 1040 48 32 51 3 256 = true := by decide +kernel

def t55 : CTree :=
  .sy (.out ⟨248, 26, 8, 470, 16, 316, ⟨[[], [(549755813888, 0)]], 1, 1⟩, ⟨[[(0, 306569494178), (0, 1835073438011)],
    [(0, 219778461930), (0, 4319936372)]], 1, 1⟩, 1099511627776, 0, 507859186894, ⟨[], 0, 0⟩, 0, 0, 0, lc0⟩ 0 1
    1319118173332) (.out ⟨248, 26, 8, 410, 16, 282, ⟨[[], [(549755813888, 0)]], 1, 1⟩, ⟨[[(0, 88678327227), (0,
    1764046035381)], [(0, 222079676552), (0, 4860857486)]], 1, 1⟩, 1099511627776, 0, 647036365886, ⟨[], 0, 0⟩, 0, 0,
    0, lc0⟩ 0 1 1813576362007)
theorem c55 : checkC job ⟨6, 8, 8, 10, 9, 13⟩ 3 100 lims t55 496 48 16 57 3 256 = true := by decide +kernel

def t56 : CTree :=
  .sy (.sy (.out ⟨296, 26, 8, 510, 16, 341, ⟨[[], [(549755813888, 0)]], 1, 1⟩, ⟨[[(111334432823, 0), (0,
    2122861165160)], [(0, 203272029378), (0, 3728101659)]], 1, 1⟩, 1099511627776, 0, 309378618453, ⟨[], 0, 0⟩, 0, 0,
    0, lc0⟩ 0 1 1779348259647) (.out ⟨296, 26, 8, 451, 16, 309, ⟨[[], [(549755813888, 0)]], 1, 1⟩, ⟨[[(419917866975,
    0), (0, 2060233925090)], [(0, 206565292381), (0, 4118742222)]], 1, 1⟩, 1099511627776, 0, 380429068979, ⟨[], 0,
    0⟩, 0, 0, 0, lc0⟩ 0 1 2338132398172)) (.sy (.out ⟨296, 26, 8, 391, 16, 275, ⟨[[], [(549755813888, 0)]], 1, 1⟩,
    ⟨[[(303960831316, 0), (0, 2001833050261)], [(0, 208482822128), (0, 4607678406)]], 1, 1⟩, 1099511627776, 0,
    500574932174, ⟨[], 0, 0⟩, 0, 0, 0, lc0⟩ 0 1 2780240885120) (.sx (.out ⟨355, 16, 10, 519, 16, 371, ⟨[[],
    [(343597383680, 0)]], 1, 1⟩, ⟨[[(330574045313, 0), (0, 2834262679526)], [(0, 158690487213), (0, 3890025837)]], 1,
    1⟩, 1099511627776, 0, 461643959318, ⟨[], 0, 0⟩, 0, 0, 0, lc0⟩ 0 1 2827421801362) (.out ⟨385, 16, 10, 467, 16,
    343, ⟨[[], [(343597383680, 0)]], 1, 1⟩, ⟨[[(72094357414, 0), (0, 2969846756934)], [(0, 151275275324), (0,
    3554904783)]], 1, 1⟩, 1099511627776, 0, 449535398782, ⟨[], 0, 0⟩, 0, 0, 0, lc0⟩ 0 1 3333986041568)))
theorem c56 : checkC job ⟨6, 8, 8, 10, 9, 13⟩ 3 100 lims t56 592 48 16 27 3 128 = true := by decide +kernel

def t57 : CTree :=
  .sx (.sy (.out ⟨295, 16, 10, 578, 16, 402, ⟨[[], [(343597383680, 0)]], 1, 1⟩, ⟨[[(0, 252613900378), (0,
    2562861542764)], [(0, 175072291301), (0, 4136220261)]], 1, 1⟩, 1099511627776, 0, 499538745239, ⟨[], 0, 0⟩, 0, 0,
    0, lc0⟩ 0 1 1860646962277) (.sy (.out ⟨295, 16, 10, 678, 16, 481, ⟨[[], [(343597383680, 0)]], 1, 1⟩,
    ⟨[[(282468869325, 0), (0, 1663293426139)], [(0, 234484768815), (0, 3127138955)]], 1, 1⟩, 1099511627776, 0,
    428973554252, ⟨[], 0, 0⟩, 0, 0, 0, lc0⟩ 0 1 2142459370642) (.out ⟨295, 16, 10, 616, 16, 443, ⟨[[],
    [(343597383680, 0)]], 1, 1⟩, ⟨[[(43296504180, 0), (0, 1636470522545)], [(0, 234865551773), (0, 3449794882)]], 1,
    1⟩, 1099511627776, 0, 501380544733, ⟨[], 0, 0⟩, 0, 0, 0, lc0⟩ 0 1 2286309707210))) (.sy (.out ⟨325, 16, 10, 499,
    16, 357, ⟨[[], [(343597383680, 0)]], 1, 1⟩, ⟨[[(0, 32053793630), (0, 2666814027989)], [(0, 167995128891), (0,
    4468662786)]], 1, 1⟩, 1099511627776, 0, 571387821723, ⟨[], 0, 0⟩, 0, 0, 0, lc0⟩ 0 1 2536001815555) (.sy (.out
    ⟨325, 16, 10, 580, 16, 425, ⟨[[], [(343597383680, 0)]], 1, 1⟩, ⟨[[(352088675921, 0), (0, 1768500899441)], [(0,
    227228651892), (0, 3437822006)]], 1, 1⟩, 1099511627776, 0, 429647228029, ⟨[], 0, 0⟩, 0, 0, 0, lc0⟩ 0 1
    2721962986480) (.out ⟨325, 16, 10, 518, 16, 386, ⟨[[], [(343597383680, 0)]], 1, 1⟩, ⟨[[(0, 90207583090), (0,
    1753039286824)], [(0, 226916011101), (0, 3747784353)]], 1, 1⟩, 1099511627776, 0, 488944058625, ⟨[], 0, 0⟩, 0, 0,
    0, lc0⟩ 0 1 2784890883562)))
theorem c57 : checkC job ⟨6, 8, 8, 10, 9, 13⟩ 3 100 lims t57 496 48 16 63 3 256 = true := by decide +kernel

def t58 : CTree :=
  .sx (.sy (.sx (.sy (.out ⟨575, 16, 20, 905, 16, 655, ⟨[[], [(343597383680, 0)]], 1, 1⟩, ⟨[[(348514681587, 0), (0,
    2472693436785)], [(0, 184566521959), (0, 2882081138)]], 1, 1⟩, 1099511627776, 0, 351927451223, ⟨[], 0, 0⟩, 0, 0,
    0, lc0⟩ 0 1 2265451912226) (.out ⟨575, 16, 20, 810, 16, 595, ⟨[[], [(343597383680, 0)]], 1, 1⟩, ⟨[[(0,
    433433430264), (0, 2447158889614)], [(0, 185163495132), (0, 3249431885)]], 1, 1⟩, 1099511627776, 0, 415576729449,
    ⟨[], 0, 0⟩, 0, 0, 0, lc0⟩ 0 1 2359602906814)) (.sy (.out ⟨605, 16, 20, 814, 16, 600, ⟨[[], [(343597383680, 0)]],
    1, 1⟩, ⟨[[(62190356044, 0), (0, 2539203417461)], [(0, 180108854775), (0, 3068008987)]], 1, 1⟩, 1099511627776, 0,
    376699353588, ⟨[], 0, 0⟩, 0, 0, 0, lc0⟩ 0 1 2525266659915) (.out ⟨605, 16, 20, 717, 16, 538, ⟨[[],
    [(343597383680, 0)]], 1, 1⟩, ⟨[[(0, 129113881765), (0, 2519017894016)], [(0, 179948145873), (0, 3436076977)]], 1,
    1⟩, 1099511627776, 0, 442612923679, ⟨[], 0, 0⟩, 0, 0, 0, lc0⟩ 0 1 2570335305538))) (.sx (.sy (.out ⟨575, 16, 20,
    711, 16, 532, ⟨[[], [(343597383680, 0)]], 1, 1⟩, ⟨[[(359221006295, 0), (0, 2425203058055)], [(0, 185199880362),
    (0, 3687139425)]], 1, 1⟩, 1099511627776, 0, 495809066750, ⟨[], 0, 0⟩, 0, 0, 0, lc0⟩ 0 1 2417158669428) (.sy (.out
    ⟨575, 16, 20, 831, 16, 631, ⟨[[], [(343597383680, 0)]], 1, 1⟩, ⟨[[(423601795801, 0), (0, 1575708506065)], [(0,
    241444931299), (0, 2685774408)]], 1, 1⟩, 1099511627776, 0, 417103203147, ⟨[], 0, 0⟩, 0, 0, 0, lc0⟩ 0 1
    2417924518430) (.out ⟨575, 16, 20, 765, 16, 587, ⟨[[], [(343597383680, 0)]], 1, 1⟩, ⟨[[(146048809014, 0), (0,
    1572111903148)], [(0, 240888197504), (0, 2958110140)]], 1, 1⟩, 1099511627776, 0, 494242786857, ⟨[], 0, 0⟩, 0, 0,
    0, lc0⟩ 0 1 2395103574342))) (.sy (.out ⟨605, 16, 20, 619, 16, 474, ⟨[[], [(343597383680, 0)]], 1, 1⟩, ⟨[[(0,
    275707049807), (0, 2507310181427)], [(0, 179241374079), (0, 3965377805)]], 1, 1⟩, 1099511627776, 0, 580909093892,
    ⟨[], 0, 0⟩, 0, 0, 0, lc0⟩ 0 1 2551057027056) (.sx (.sy (.out ⟨1195, 16, 40, 1151, 16, 891, ⟨[[], [(343597383680,
    0)]], 1, 1⟩, ⟨[[(0, 215618512944), (0, 2525529313752)], [(0, 183240033753), (0, 2319991036)]], 1, 1⟩,
    1099511627776, 0, 314694481750, ⟨[], 0, 0⟩, 0, 0, 0, lc0⟩ 0 1 2473864032183) (.skip)) (.skip))))) (.sy (.sx (.sy
    (.out ⟨635, 16, 20, 731, 16, 550, ⟨[[], [(343597383680, 0)]], 1, 1⟩, ⟨[[(403373793947, 0), (0, 2614157605861)],
    [(0, 174948651489), (0, 3139514195)]], 1, 1⟩, 1099511627776, 0, 388393991387, ⟨[], 0, 0⟩, 0, 0, 0, lc0⟩ 0 1
    2722033260870) (.sy (.out ⟨635, 16, 20, 880, 16, 672, ⟨[[], [(343597383680, 0)]], 1, 1⟩, ⟨[[(0, 34671991087), (0,
    1738313379272)], [(0, 232560179892), (0, 2285821165)]], 1, 1⟩, 1099511627776, 0, 277410653953, ⟨[], 0, 0⟩, 0, 0,
    0, lc0⟩ 0 1 2707955118978) (.out ⟨635, 16, 20, 816, 16, 630, ⟨[[], [(343597383680, 0)]], 1, 1⟩, ⟨[[(0,
    230489358189), (0, 1738293853787)], [(0, 231878216507), (0, 2502687037)]], 1, 1⟩, 1099511627776, 0, 328170494888,
    ⟨[], 0, 0⟩, 0, 0, 0, lc0⟩ 0 1 2672898498968))) (.sy (.out ⟨665, 16, 20, 661, 16, 508, ⟨[[], [(343597383680, 0)]],
    1, 1⟩, ⟨[[(66487957224, 0), (0, 2704171586395)], [(0, 169239375370), (0, 3143486131)]], 1, 1⟩, 1099511627776, 0,
    429869316184, ⟨[], 0, 0⟩, 0, 0, 0, lc0⟩ 0 1 2840022741716) (.skip))) (.skip))
theorem c58 : checkC job ⟨6, 8, 8, 10, 9, 13⟩ 3 100 lims t58 496 48 16 69 3 256 = true := by decide +kernel

def t59 : CTree :=
  .sy (.sx (.sy (.out ⟨355, 16, 10, 432, 16, 319, ⟨[[], [(343597383680, 0)]], 1, 1⟩, ⟨[[(344704836202, 0), (0,
    2791101066554)], [(0, 159533152731), (0, 4387558112)]], 1, 1⟩, 1099511627776, 0, 568620492960, ⟨[], 0, 0⟩, 0, 0,
    0, lc0⟩ 0 1 3057531925206) (.sy (.out ⟨355, 16, 10, 506, 16, 384, ⟨[[], [(343597383680, 0)]], 1, 1⟩, ⟨[[(0,
    254249332608), (0, 1907914420202)], [(0, 218276649709), (0, 3226347312)]], 1, 1⟩, 1099511627776, 0, 351368183391,
    ⟨[], 0, 0⟩, 0, 0, 0, lc0⟩ 0 1 3093616918381) (.out ⟨355, 16, 10, 447, 16, 347, ⟨[[], [(343597383680, 0)]], 1, 1⟩,
    ⟨[[(154616700621, 0), (0, 1912994508935)], [(0, 216754678528), (0, 3757193049)]], 1, 1⟩, 1099511627776, 0,
    716608105748, ⟨[], 0, 0⟩, 0, 0, 0, lc0⟩ 0 1 3022877006681))) (.sy (.sy (.out ⟨385, 16, 10, 571, 16, 431, ⟨[[],
    [(343597383680, 0)]], 1, 1⟩, ⟨[[(0, 210094872518), (0, 2072920407348)], [(0, 211136446859), (0, 2444153940)]], 1,
    1⟩, 1099511627776, 0, 259796299948, ⟨[], 0, 0⟩, 0, 0, 0, lc0⟩ 0 1 3397308528489) (.out ⟨385, 16, 10, 516, 16,
    398, ⟨[[], [(343597383680, 0)]], 1, 1⟩, ⟨[[(256391854192, 0), (0, 2077797762875)], [(0, 209515981491), (0,
    2730316766)]], 1, 1⟩, 1099511627776, 0, 501607676456, ⟨[], 0, 0⟩, 0, 0, 0, lc0⟩ 0 1 3351783445949)) (.sy (.sx
    (.out ⟨755, 16, 20, 682, 16, 533, ⟨[[], [(343597383680, 0)]], 1, 1⟩, ⟨[[(41398703307, 0), (0, 2981547263677)],
    [(0, 153408647269), (0, 2701139004)]], 1, 1⟩, 1099511627776, 0, 584801076382, ⟨[], 0, 0⟩, 0, 0, 0, lc0⟩ 0 1
    3210306327625) (.skip)) (.skip)))) (.skip)
theorem c59 : checkC job ⟨6, 8, 8, 10, 9, 13⟩ 3 100 lims t59 592 48 16 33 3 128 = true := by decide +kernel

def t60 : CTree :=
  .sy (.sy (.out ⟨344, 26, 8, 455, 16, 315, ⟨[[], [(549755813888, 0)]], 1, 1⟩, ⟨[[(0, 520908122375), (0,
    2301059902728)], [(0, 192874946452), (0, 3540737131)]], 1, 1⟩, 1099511627776, 0, 242332489764, ⟨[], 0, 0⟩, 0, 0,
    0, lc0⟩ 0 1 3132612495776) (.out ⟨344, 26, 8, 398, 16, 284, ⟨[[], [(549755813888, 0)]], 1, 1⟩, ⟨[[(0,
    21755037389), (0, 2264975180488)], [(0, 194754266358), (0, 3754682992)]], 1, 1⟩, 1099511627776, 0, 416431659105,
    ⟨[], 0, 0⟩, 0, 0, 0, lc0⟩ 0 1 3558607602865)) (.sx (.sy (.out ⟨415, 16, 10, 506, 16, 369, ⟨[[], [(343597383680,
    0)]], 1, 1⟩, ⟨[[(452558596606, 0), (0, 3131470634155)], [(0, 142973588405), (0, 2900254475)]], 1, 1⟩,
    1099511627776, 0, 386888776937, ⟨[], 0, 0⟩, 0, 0, 0, lc0⟩ 0 1 3593924211780) (.sy (.out ⟨415, 16, 10, 643, 16,
    481, ⟨[[], [(343597383680, 0)]], 1, 1⟩, ⟨[[(0, 356495551024), (0, 2225478529553)], [(0, 203352926406), (0,
    1849161805)]], 1, 1⟩, 1099511627776, 0, 280649745643, ⟨[], 0, 0⟩, 0, 0, 0, lc0⟩ 0 1 3691807950779) (.out ⟨415,
    16, 10, 595, 16, 454, ⟨[[], [(343597383680, 0)]], 1, 1⟩, ⟨[[(0, 241946329533), (0, 2236269805793)], [(0,
    202531653511), (0, 1885033011)]], 1, 1⟩, 1099511627776, 0, 434941318585, ⟨[], 0, 0⟩, 0, 0, 0, lc0⟩ 0 1
    3684704940750))) (.sy (.out ⟨445, 16, 10, 485, 16, 362, ⟨[[], [(343597383680, 0)]], 1, 1⟩, ⟨[[(0, 332288950627),
    (0, 3303530829711)], [(0, 135941586756), (0, 1870495135)]], 1, 1⟩, 1099511627776, 0, 540472926162, ⟨[], 0, 0⟩, 0,
    0, 0, lc0⟩ 0 1 3988154923241) (.sy (.sy (.out ⟨445, 16, 10, 822, 16, 629, ⟨[[], [(343597383680, 0)]], 1, 1⟩,
    ⟨[[(0, 5730861259), (0, 1532526511840)], [(0, 248784955163), (0, 1067712883)]], 1, 1⟩, 1099511627776, 0,
    444117394420, ⟨[], 0, 0⟩, 0, 0, 0, lc0⟩ 0 1 3977957006228) (.out ⟨445, 16, 10, 780, 16, 603, ⟨[[],
    [(343597383680, 0)]], 1, 1⟩, ⟨[[(0, 166766127179), (0, 1529346006330)], [(0, 246634405692), (0, 1818715985)]], 1,
    1⟩, 1099511627776, 0, 646395183841, ⟨[], 0, 0⟩, 0, 0, 0, lc0⟩ 0 1 3942315040384)) (.skip))))
theorem c60 : checkC job ⟨6, 8, 8, 10, 9, 13⟩ 3 100 lims t60 688 48 16 27 3 128 = true := by decide +kernel

def t61 : CTree :=
  .sy (.sy (.sx (.out ⟨475, 16, 10, 595, 16, 424, ⟨[[], [(343597383680, 0)]], 1, 1⟩, ⟨[[(0, 106714123467), (0,
    3422014359951)], [(0, 127458594236), (0, 2045633174)]], 1, 1⟩, 1099511627776, 0, 327689861749, ⟨[], 0, 0⟩, 0, 0,
    0, lc0⟩ 0 1 3993856605957) (.out ⟨505, 16, 10, 577, 16, 419, ⟨[[], [(343597383680, 0)]], 1, 1⟩, ⟨[[(87103661334,
    0), (0, 3550694438895)], [(0, 121122229635), (0, 1438224276)]], 1, 1⟩, 1099511627776, 0, 384418557698, ⟨[], 0,
    0⟩, 0, 0, 0, lc0⟩ 0 1 4465412160960)) (.sx (.out ⟨475, 16, 10, 531, 16, 391, ⟨[[], [(343597383680, 0)]], 1, 1⟩,
    ⟨[[(0, 403581013117), (0, 3432287428022)], [(0, 128331429742), (0, 1561233164)]], 1, 1⟩, 1099511627776, 0,
    450289368730, ⟨[], 0, 0⟩, 0, 0, 0, lc0⟩ 0 1 4245847732660) (.sy (.out ⟨505, 16, 10, 801, 16, 597, ⟨[[],
    [(343597383680, 0)]], 1, 1⟩, ⟨[[(0, 12418569385), (0, 2657718916553)], [(0, 179855593431), (0, 576306809)]], 1,
    1⟩, 1099511627776, 0, 338447900317, ⟨[], 0, 0⟩, 0, 0, 0, lc0⟩ 0 1 4585304702546) (.out ⟨505, 16, 10, 760, 16,
    577, ⟨[[], [(343597383680, 0)]], 1, 1⟩, ⟨[[(0, 99701848724), (0, 2661733088377)], [(0, 177854946535), (0,
    1149961725)]], 1, 1⟩, 1099511627776, 0, 752283654216, ⟨[], 0, 0⟩, 0, 0, 0, lc0⟩ 0 1 4593115001264)))) (.sy (.sx
    (.sy (.out ⟨475, 16, 10, 717, 16, 543, ⟨[[], [(343597383680, 0)]], 1, 1⟩, ⟨[[(0, 191852975940), (0,
    2528525494170)], [(0, 186555587393), (0, 988722523)]], 1, 1⟩, 1099511627776, 0, 506152542391, ⟨[], 0, 0⟩, 0, 0,
    0, lc0⟩ 0 1 4295648773734) (.sx (.sy (.out ⟨935, 16, 20, 1371, 16, 1048, ⟨[[], [(343597383680, 0)]], 1, 1⟩,
    ⟨[[(311937202510, 0), (0, 2510195597036)], [(0, 188741706175), (0, 794307278)]], 1, 1⟩, 1099511627776, 0,
    212202813827, ⟨[], 0, 0⟩, 0, 0, 0, lc0⟩ 0 1 4205597044994) (.out ⟨935, 16, 20, 1295, 16, 1000, ⟨[[],
    [(343597383680, 0)]], 1, 1⟩, ⟨[[(168698843168, 0), (0, 2497912364493)], [(0, 186815786489), (0, 1619741066)]], 1,
    1⟩, 1099511627776, 0, 342834493276, ⟨[], 0, 0⟩, 0, 0, 0, lc0⟩ 0 1 4172137045286)) (.skip))) (.sy (.sx (.sx (.out
    ⟨1975, 16, 40, 1161, 16, 892, ⟨[[], [(343597383680, 0)]], 1, 1⟩, ⟨[[(165366537624, 0), (0, 4317709183850)], [(0,
    74311691339), (0, 1235966911)]], 1, 1⟩, 1099511627776, 0, 640847998891, ⟨[], 0, 0⟩, 0, 0, 0, lc0⟩ 0 1
    4453515897178) (.skip)) (.skip)) (.skip))) (.skip))
theorem c61 : checkC job ⟨6, 8, 8, 10, 9, 13⟩ 3 100 lims t61 784 48 16 27 3 128 = true := by decide +kernel

def t62 : CTree :=
  .sx (.sy (.sx (.sy (.sy (.sx (.out ⟨815, 16, 20, 782, 16, 605, ⟨[[], [(343597383680, 0)]], 1, 1⟩, ⟨[[(13534096737,
    0), (0, 3149486202504)], [(0, 145334501505), (0, 1865570465)]], 1, 1⟩, 1099511627776, 0, 446590699726, ⟨[], 0,
    0⟩, 0, 0, 0, lc0⟩ 0 1 3564005726832) (.skip)) (.skip)) (.skip)) (.skip)) (.skip)) (.skip)
theorem c62 : checkC job ⟨6, 8, 8, 10, 9, 13⟩ 3 100 lims t62 368 48 8 33 3 128 = true := by decide +kernel

def t63 : CTree :=
  .sx (.sy (.sx (.sy (.sx (.sy (.sx (.sy (.sx (.out ⟨1135, 16, 40, 743, 16, 576, ⟨[[], [(343597383680, 0)]], 1, 1⟩,
    ⟨[[(110739478987, 0), (0, 3318414980738)], [(0, 129172067627), (0, 3678425099)]], 1, 1⟩, 1099511627776, 0,
    761130298725, ⟨[], 0, 0⟩, 0, 0, 0, lc0⟩ 0 1 2317045856978) (.skip)) (.skip)) (.skip)) (.skip)) (.skip)) (.skip))
    (.skip)) (.skip)) (.skip)
theorem c63 : checkC job ⟨6, 8, 8, 10, 9, 13⟩ 3 100 lims t63 160 48 4 21 3 64 = true := by decide +kernel

def t64 : CTree :=
  .sy (.sx (.leaf ⟨448, 49, 8, 195, 16, 286, ⟨[[], [(1099511627776, 0)]], 3, 4⟩, ⟨[[(446296187258, 0),
    (3973396366354, 0), (0, 16359221109), (355208277, 0), (0, 1215189)], [(94274127813, 0), (2331495052, 0),
    (21130963, 0), (552740, 0), (3956, 0)], [(0, 18063972), (0, 530387), (0, 31344), (528, 0), (3, 0)], [(0, 25366),
    (0, 2090), (0, 55), (0, 1)]], 3, 4⟩, 1099511627776, 0, 74739968, ⟨[[(72579717139158, 0), (0, 153313624553),
    (148109186, 0), (698474, 0), (3399, 0)], [(13102573954, 0), (64447951, 0), (0, 3838), (0, 689), (0, 4)], [(0,
    9104494), (0, 78255), (0, 620), (0, 3)], [(4634, 0), (99, 0)]], 3, 4⟩, 68719476736, 124104260,
    2029173018343712051179329282696584498471462992276298774854997851818846052734535755494913474560, lc0⟩) (.leaf
    ⟨544, 49, 8, 198, 16, 279, ⟨[[], [(1099511627776, 0)]], 3, 4⟩, ⟨[[(534201473985, 0), (4087927971480, 0), (0,
    14295235871), (402345266, 0), (0, 799822)], [(87921219166, 0), (2119268909, 0), (13862319, 0), (614083, 0),
    (3995, 0)], [(0, 24397692), (0, 1091943), (0, 36022), (200, 0), (0, 2)], [(0, 22221), (0, 1894), (24, 0), (0,
    2)]], 3, 4⟩, 1099511627776, 0, 111435336, ⟨[[(72589577667103, 0), (0, 149028064532), (165556349, 0), (712891, 0),
    (170, 0)], [(11881343146, 0), (51016941, 0), (0, 153777), (0, 1192), (6, 0)], [(0, 8343269), (0, 65202), (0,
    631), (2, 0)], [(4434, 0), (74, 0)]], 3, 4⟩, 68719476736, 245185468,
    3195555546170512838193079169535741174332993225598940191394689416956787069970247161728863305728, lc0⟩)) (.sx (.sx
    (.leaf ⟨424, 25, 8, 256, 16, 342, ⟨[[], [(549755813888, 0)]], 3, 4⟩, ⟨[[(192159595345, 0), (4485088838451, 0),
    (0, 13048645356), (388880295, 0), (0, 369130)], [(65857347548, 0), (1604846559, 0), (19647666, 0), (364520, 0),
    (674, 0)], [(0, 5784161), (0, 192722), (0, 5352), (82, 0), (0, 11)], [(0, 6114), (0, 441), (0, 13)]], 3, 4⟩,
    1099511627776, 0, 16780251, ⟨[[(69363152531700, 0), (0, 124121100815), (134498743, 0), (443443, 0), (0, 1305)],
    [(14856876550, 0), (57248554, 0), (0, 24491), (0, 1066), (0, 9)], [(0, 11328807), (0, 94278), (0, 525), (1, 0)],
    [(6954, 0), (104, 0), (1, 0)]], 3, 4⟩, 68719476736, 50545350,
    1520015241151743944491942510203019145008419939438167173362103239117065216385055838336850427415, lc0⟩) (.leaf
    ⟨472, 25, 8, 257, 16, 335, ⟨[[], [(549755813888, 0)]], 3, 4⟩, ⟨[[(0, 537028016427), (4542085296916, 0), (0,
    10992745807), (415630509, 0), (0, 421106)], [(63258289668, 0), (1524096592, 0), (17918086, 0), (362542, 0), (0,
    2145)], [(0, 7352692), (0, 308387), (0, 8472), (0, 30), (0, 19)], [(0, 5701), (0, 394), (0, 10)]], 3, 4⟩,
    1099511627776, 0, 19357691, ⟨[[(69281917609400, 0), (0, 122352942686), (145264566, 0), (380362, 0), (0, 1484)],
    [(14124201682, 0), (48883975, 0), (0, 89090), (0, 697), (17, 0)], [(0, 10902068), (0, 87046), (0, 338), (8, 0)],
    [(6916, 0), (104, 0), (1, 0)]], 3, 4⟩, 68719476736, 74553925,
    2572939143545792086308126191652643954774172393917674513475883545918998074112904964463234305621, lc0⟩)) (.sy
    (.leaf ⟨544, 49, 8, 334, 16, 434, ⟨[[], [(1099511627776, 0)]], 3, 4⟩, ⟨[[(465514570236, 0), (3098277081803, 0),
    (0, 3473286296), (76360043, 0), (0, 63307)], [(152126796478, 0), (1775070325, 0), (8689426, 0), (117516, 0), (0,
    828)], [(0, 46709742), (0, 1096380), (0, 13964), (0, 81), (0, 8)], [(0, 47373), (0, 1413), (0, 4), (0, 1)]], 3,
    4⟩, 1099511627776, 0, 205887331, ⟨[[(70148197678255, 0), (0, 91872781524), (82510387, 0), (175275, 0), (260, 0)],
    [(12686867734, 0), (29099196, 0), (0, 69467), (395, 0), (13, 0)], [(0, 9579606), (0, 51149), (0, 27), (5, 0)],
    [(5898, 0), (71, 0), (1, 0)]], 3, 4⟩, 68719476736, 79723920,
    2897689940725027455797274358003672030804291406439831900058125125994919795518241674242883591826, lc0⟩) (.sx (.leaf
    ⟨520, 25, 8, 448, 16, 559, ⟨[[], [(549755813888, 0)]], 3, 4⟩, ⟨[[(0, 251012532369), (3888110219652, 0), (0,
    3065184152), (92576769, 0), (0, 117558)], [(106646688064, 0), (1255575783, 0), (7291336, 0), (60778, 0), (0,
    1066)], [(0, 15984756), (0, 373073), (0, 5079), (0, 81), (0, 4)], [(0, 9626), (0, 293), (0, 4)]], 3, 4⟩,
    1099511627776, 0, 23330273, ⟨[[(68574782304108, 0), (0, 70011619661), (55171184, 0), (92381, 0), (377, 0)],
    [(13582973858, 0), (23323363, 0), (0, 28475), (344, 0), (1, 0)], [(0, 10798018), (0, 43195), (69, 0), (1, 0)],
    [(7432, 0), (72, 0)]], 3, 4⟩, 68719476736, 18701257,
    2173725167466766143531033615845744449430966366513604624073274091793781782770480363756237567537, lc0⟩) (.leaf
    ⟨568, 25, 8, 452, 16, 553, ⟨[[], [(549755813888, 0)]], 3, 4⟩, ⟨[[(40820113013, 0), (3961978519555, 0), (0,
    2389660144), (96429128, 0), (0, 256951)], [(102213115867, 0), (1163961449, 0), (6140396, 0), (38750, 0), (0,
    1923)], [(0, 18387483), (0, 440739), (0, 6104), (0, 146), (0, 5)], [(0, 8303), (0, 204), (0, 3)]], 3, 4⟩,
    1099511627776, 0, 29948350, ⟨[[(68592795077525, 0), (0, 68734448965), (58167993, 0), (112339, 0), (0, 384)],
    [(12768941180, 0), (19496903, 0), (0, 20178), (0, 236), (0, 24)], [(0, 10093011), (0, 34273), (0, 73), (0, 8)],
    [(6971, 0), (42, 0), (0, 1)]], 3, 4⟩, 68719476736, 57738499,
    2603290490470019618080047850937941220695262906873322202314233824678773901728634165628643688568, lc0⟩))))
theorem c64 : checkC job ⟨6, 8, 8, 10, 9, 13⟩ 3 100 lims t64 256 48 4 3 3 128 = true := by decide +kernel

def t65 : CTree :=
  .sx (.sy (.leaf ⟨424, 25, 8, 454, 16, 566, ⟨[[], [(549755813888, 0)]], 3, 4⟩, ⟨[[(0, 4145862808), (3633635106057,
    0), (0, 3238529442), (79834264, 0), (8288, 0)], [(121657287906, 0), (1492581828, 0), (10143272, 0), (72049, 0),
    (0, 204)], [(0, 11184375), (0, 199610), (0, 2538), (0, 48), (0, 2)], [(0, 13888), (0, 483), (0, 8)]], 3, 4⟩,
    1099511627776, 0, 12915283, ⟨[[(67136342670284, 0), (0, 71773603766), (56885334, 0), (76240, 0), (0, 10)],
    [(15890713678, 0), (33364916, 0), (0, 29803), (0, 111), (4, 0)], [(0, 13214375), (0, 66188), (0, 72), (3, 0)],
    [(9210, 0), (91, 0), (1, 0)]], 3, 4⟩, 68719476736, 12906164,
    2020933223358403463202362583827138478574007157402951662201819941616682113370113408322523987032, lc0⟩) (.leaf
    ⟨424, 25, 8, 464, 16, 554, ⟨[[], [(549755813888, 0)]], 3, 4⟩, ⟨[[(0, 340089430929), (3527017393318, 0), (0,
    1757135999), (79142336, 0), (87385, 0)], [(128216003590, 0), (1587531327, 0), (11160057, 0), (67117, 0), (0, 5)],
    [(0, 12221824), (0, 232087), (0, 3786), (0, 97), (0, 2)], [(0, 16767), (0, 593), (0, 12)]], 3, 4⟩, 1099511627776,
    0, 15265375, ⟨[[(65720742146718, 0), (0, 70899725197), (64587136, 0), (103470, 0), (554, 0)], [(16547571629, 0),
    (32884283, 0), (0, 26252), (262, 0), (2, 0)], [(0, 14546953), (0, 67027), (94, 0), (2, 0)], [(11321, 0), (119,
    0)]], 3, 4⟩, 68719476736, 25023535,
    2522078847000037187396167015489242380471144216888939635236004824292047343311519068072610048301, lc0⟩)) (.sy
    (.leaf ⟨472, 25, 8, 457, 16, 557, ⟨[[], [(549755813888, 0)]], 3, 4⟩, ⟨[[(139929313898, 0), (3714641961916, 0),
    (0, 2259193006), (84769860, 0), (0, 34619)], [(117238015848, 0), (1418291129, 0), (9270150, 0), (56454, 0), (0,
    726)], [(0, 14837702), (0, 328332), (0, 4931), (0, 107), (0, 3)], [(0, 12854), (0, 436), (0, 9)]], 3, 4⟩,
    1099511627776, 0, 22134076, ⟨[[(67145542361434, 0), (0, 70255775302), (59855022, 0), (95903, 0), (476, 0)],
    [(14967336158, 0), (27460238, 0), (0, 25608), (305, 0), (1, 0)], [(0, 12504551), (0, 53402), (82, 0), (1, 0)],
    [(9231, 0), (91, 0)]], 3, 4⟩, 68719476736, 21287204,
    2575059419753513449119598384364344763571956493124501637388425738557717551149972476230873195667, lc0⟩) (.leaf
    ⟨472, 25, 8, 466, 16, 544, ⟨[[], [(549755813888, 0)]], 3, 4⟩, ⟨[[(219683112008, 0), (3610393099028, 0), (0,
    718553124), (82927674, 0), (66124, 0)], [(123149836843, 0), (1499193224, 0), (9900917, 0), (40087, 0), (0, 433)],
    [(0, 16615408), (0, 392447), (0, 7368), (0, 177), (0, 3)], [(0, 15466), (0, 555), (0, 13)]], 3, 4⟩,
    1099511627776, 0, 27742446, ⟨[[(65755999646706, 0), (0, 69331967499), (69859532, 0), (125522, 0), (0, 486)],
    [(15511918997, 0), (27303143, 0), (0, 23887), (0, 667), (0, 31)], [(0, 13557952), (0, 54271), (0, 203), (0, 13)],
    [(10827, 0), (51, 0), (0, 3)]], 3, 4⟩, 68719476736, 78854135,
    3383997136553442327547124486985689350578040063792539183959658690193553096286498032962919989248, lc0⟩))
theorem c65 : checkC job ⟨6, 8, 8, 10, 9, 13⟩ 3 100 lims t65 464 48 8 15 3 256 = true := by decide +kernel

def t66 : CTree :=
  .sy (.leaf ⟨424, 25, 8, 471, 16, 540, ⟨[[], [(549755813888, 0)]], 3, 4⟩, ⟨[[(0, 338073785110), (3425768632787, 0),
    (0, 295579473), (80990023, 0), (253197, 0)], [(134666235684, 0), (1685126686, 0), (12094950, 0), (72518, 0),
    (673, 0)], [(0, 13425567), (0, 282019), (0, 5704), (0, 126), (0, 1)], [(0, 20299), (0, 750), (0, 17)]], 3, 4⟩,
    1099511627776, 0, 15724175, ⟨[[(64383327648415, 0), (0, 70058265904), (75466530, 0), (145253, 0), (0, 203)],
    [(17171318093, 0), (32929122, 0), (0, 22493), (0, 508), (0, 30)], [(0, 15805011), (0, 67002), (0, 139), (0, 12)],
    [(13410, 0), (82, 0), (0, 3)]], 3, 4⟩, 68719476736, 79849869,
    3825480351184214318098718379997906654393928759741553075896560309314721636210932061684607297172, lc0⟩) (.sx (.leaf
    ⟨515, 16, 10, 599, 16, 665, ⟨[[], [(343597383680, 0)]], 3, 4⟩, ⟨[[(0, 257750833741), (4170917457813, 0),
    (1112938237, 0), (107958506, 0), (597569, 0)], [(89850082425, 0), (1141998121, 0), (8596449, 0), (65160, 0),
    (992, 0)], [(0, 4160131), (0, 90429), (0, 1988), (0, 35)], [(0, 3936), (0, 151), (0, 3)]], 3, 4⟩, 1099511627776,
    0, 5156020, ⟨[[(63107918005537, 0), (0, 55242067522), (53900319, 0), (44184, 0), (0, 1122)], [(14465411339, 0),
    (21636546, 0), (0, 42806), (0, 1137), (0, 16)], [(0, 11163434), (0, 42773), (0, 340), (0, 6)], [(7572, 0), (0,
    2), (0, 1)]], 3, 4⟩, 68719476736, 28171976,
    3078063371153032642854312762408032546675637153322073997533421208066487003596550343577154557526, lc0⟩) (.leaf
    ⟨545, 16, 10, 597, 16, 654, ⟨[[], [(343597383680, 0)]], 3, 4⟩, ⟨[[(0, 506919580027), (4208791587234, 0),
    (1884996774, 0), (111944689, 0), (677777, 0)], [(87471508363, 0), (1101897431, 0), (7980514, 0), (55506, 0),
    (885, 0)], [(0, 5202136), (0, 132214), (0, 2996), (0, 55), (0, 1)], [(0, 3836), (0, 152), (0, 4)]], 3, 4⟩,
    1099511627776, 0, 5531148, ⟨[[(63096100572271, 0), (0, 54697425819), (53623854, 0), (0, 40760), (0, 1147)],
    [(13963464609, 0), (18040748, 0), (0, 99280), (0, 1011), (39, 0)], [(0, 10897783), (0, 49710), (0, 213), (20, 0),
    (1, 0)], [(6660, 0), (25, 0), (5, 0)]], 3, 4⟩, 68719476736, 124334444,
    3328848847509778278162925630838886946835147079556647899429250859804087847910855341260297943219, lc0⟩))
theorem c66 : checkC job ⟨6, 8, 8, 10, 9, 13⟩ 3 100 lims t66 880 48 16 21 3 256 = true := by decide +kernel

def t67 : CTree :=
  .sx (.leaf ⟨575, 16, 10, 585, 16, 659, ⟨[[], [(343597383680, 0)]], 3, 4⟩, ⟨[[(104856610312, 0), (4326646326388, 0),
    (657968679, 0), (104262616, 0), (361111, 0)], [(80801001495, 0), (996322123, 0), (6711312, 0), (29993, 0), (301,
    0)], [(0, 5412085), (0, 135605), (0, 2926), (0, 61), (0, 1)], [(0, 2984), (0, 114), (0, 3)]], 3, 4⟩,
    1099511627776, 0, 5893101, ⟨[[(64410208665379, 0), (0, 55471032427), (51144016, 0), (16004, 0), (0, 1394)],
    [(13052784501, 0), (17804463, 0), (0, 54730), (0, 1265), (0, 8)], [(0, 9605955), (0, 38263), (0, 358), (0, 2)],
    [(5948, 0), (0, 9)]], 3, 4⟩, 68719476736, 39899243,
    3003308413273010253497425348922527343996578812301210861964868155559881750507828919826875448896, lc0⟩) (.leaf
    ⟨605, 16, 10, 584, 16, 650, ⟨[[], [(343597383680, 0)]], 3, 4⟩, ⟨[[(17705026496, 0), (4360565450952, 0),
    (1255314218, 0), (105071882, 0), (379619, 0)], [(78592184080, 0), (953924967, 0), (5985223, 0), (16414, 0), (186,
    0)], [(0, 6170010), (0, 166067), (0, 3730), (0, 77), (0, 1)], [(0, 2828), (0, 111), (0, 3)]], 3, 4⟩,
    1099511627776, 0, 6651840, ⟨[[(64406224922516, 0), (0, 55030934029), (49757019, 0), (0, 47506), (0, 23)],
    [(12597499049, 0), (14487100, 0), (0, 92292), (61, 0), (82, 0)], [(0, 9386210), (0, 41317), (116, 0), (35, 0),
    (1, 0)], [(5470, 0), (60, 0), (7, 0)]], 3, 4⟩, 68719476736, 217405531,
    3142479931768134965737198091307546274455926904535845154381975797514875926342898500002693926183, lc0⟩)
theorem c67 : checkC job ⟨6, 8, 8, 10, 9, 13⟩ 3 100 lims t67 976 48 16 39 3 512 = true := by decide +kernel

def t68 : CTree :=
  .sy (.leaf ⟨575, 16, 10, 960, 16, 1049, ⟨[[], [(343597383680, 0)]], 3, 4⟩, ⟨[[(0, 463099069681), (3453469541074,
    0), (843967339, 0), (22551453, 0), (65241, 0)], [(135977215274, 0), (842617028, 0), (2852985, 0), (7745, 0), (65,
    0)], [(0, 9689889), (0, 132006), (0, 1521), (0, 14)], [(0, 5671), (0, 115), (0, 1)]], 3, 4⟩, 1099511627776, 0,
    3369692, ⟨[[(63423491609510, 0), (0, 33695547190), (19609626, 0), (0, 8157), (324, 0)], [(13349954511, 0),
    (9306867, 0), (0, 33342), (495, 0), (24, 0)], [(0, 10380650), (0, 25830), (319, 0), (17, 0)], [(6609, 0), (105,
    0), (6, 0)]], 3, 4⟩, 68719476736, 38535436,
    1724645028418989768804943051858051899385425232134711427067495531229315438492913003554072206866, lc0⟩) (.sx (.leaf
    ⟨1135, 16, 20, 1202, 16, 1293, ⟨[[], [(343597383680, 0)]], 3, 4⟩, ⟨[[(268064690056, 0), (4246244014732, 0),
    (1469623873, 0), (29742764, 0), (103500, 0)], [(87288095264, 0), (545307916, 0), (1904789, 0), (6283, 0), (46,
    0)], [(0, 3105105), (0, 43835), (0, 517), (0, 5)], [(0, 994), (0, 21)]], 3, 4⟩, 1099511627776, 0, 829802,
    ⟨[[(62815010156874, 0), (0, 26906805337), (13238713, 0), (19577, 0), (734, 0)], [(6823895033, 0), (3706505, 0),
    (5279, 0), (666, 0), (13, 0)], [(0, 2709658), (0, 1416), (231, 0), (6, 0)], [(1184, 0), (36, 0), (1, 0)]], 3, 4⟩,
    68719476736, 19949635,
    1588835532812062451904775979361993966818682614257758078913338708618306007657543776534764845798, lc0⟩) (.leaf
    ⟨1165, 16, 20, 1201, 16, 1284, ⟨[[], [(343597383680, 0)]], 3, 4⟩, ⟨[[(458589669213, 0), (4268253638878, 0),
    (1636008206, 0), (30086267, 0), (106673, 0)], [(86061294773, 0), (532586673, 0), (1785385, 0), (5202, 0), (35,
    0)], [(0, 3366226), (0, 49452), (0, 593), (0, 6)], [(0, 976), (0, 21)]], 3, 4⟩, 1099511627776, 0, 900356,
    ⟨[[(62819317385961, 0), (0, 26770040727), (15336556, 0), (93616, 0), (2015, 0)], [(6694122519, 0), (4310896, 0),
    (54457, 0), (1784, 0), (28, 0)], [(0, 2552274), (9384, 0), (581, 0), (12, 0)], [(1884, 0), (82, 0), (2, 0)]], 3,
    4⟩, 68719476736, 40240571,
    3920863060961033297000327212830501659435828182415652988424274044473674739339382119231895708819, lc0⟩))
theorem c68 : checkC job ⟨6, 8, 8, 10, 9, 13⟩ 3 100 lims t68 1904 48 32 45 3 512 = true := by decide +kernel

def t69 : CTree :=
  .sy (.sx (.leaf ⟨1195, 16, 20, 1192, 16, 1291, ⟨[[], [(343597383680, 0)]], 3, 4⟩, ⟨[[(0, 165375353852),
    (4323940250736, 0), (1281074368, 0), (28341208, 0), (85422, 0)], [(82760815854, 0), (505706459, 0), (1606326, 0),
    (3343, 0), (31, 0)], [(0, 3353848), (0, 48249), (0, 569), (0, 5)], [(0, 851), (0, 18)]], 3, 4⟩, 1099511627776, 0,
    914491, ⟨[[(63433436838907, 0), (0, 26947775231), (13265267, 0), (38672, 0), (1088, 0)], [(6482587036, 0),
    (3523393, 0), (17973, 0), (955, 0), (17, 0)], [(0, 2491635), (1403, 0), (310, 0), (7, 0)], [(1238, 0), (44, 0),
    (1, 0)]], 3, 4⟩, 68719476736, 25632290,
    1887119899352049066732309415822997483394142159160044589023945354875042676758281900121099557648, lc0⟩) (.sy (.leaf
    ⟨1225, 16, 20, 1935, 16, 2094, ⟨[[], [(343597383680, 0)]], 3, 4⟩, ⟨[[(200319153582, 0), (3542388067361, 0),
    (528056670, 0), (5697669, 0), (8242, 0)], [(131954289201, 0), (398604767, 0), (600406, 0), (425, 0), (2, 0)],
    [(0, 5706243), (0, 41729), (0, 248), (0, 1)], [(0, 1311), (0, 14)]], 3, 4⟩, 1099511627776, 0, 666307,
    ⟨[[(63599611441170, 0), (0, 16530111404), (5454797, 0), (19040, 0), (260, 0)], [(6340317593, 0), (2358016, 0),
    (17141, 0), (363, 0), (4, 0)], [(0, 2363184), (4334, 0), (184, 0), (2, 0)], [(1550, 0), (40, 0), (1, 0)]], 3, 4⟩,
    68719476736, 4661304,
    1649423161312347120128232705336578312336869894539922810362758697366917168923298110871530065233, lc0⟩) (.sx (.leaf
    ⟨2496, 16, 41, 2394, 16, 2569, ⟨[[(0, 137438953472)], [(352187318272, 0)]], 3, 4⟩, ⟨[[(321437270574, 0),
    (4342494929290, 0), (757858542, 0), (7237610, 0), (11680, 0)], [(82597869706, 0), (250265260, 0), (381152, 0),
    (332, 0), (1, 0)], [(0, 1798844), (0, 13423), (0, 81)], [(0, 215), (0, 2)]], 3, 4⟩, 1099511627776, 0, 230476,
    ⟨[[(63283168033488, 0), (0, 13330815630), (4395274, 0), (20466, 0), (191, 0)], [(3131189496, 0), (1234499, 0),
    (11974, 0), (160, 0), (1, 0)], [(0, 543533), (2147, 0), (49, 0)], [(267, 0), (6, 0)]], 3, 4⟩, 68719476736,
    2237952, 1962399350599213157999592340833124164165334903205731872120523234526610100676494554270844938422, lc0⟩)
    (.sy (.leaf ⟨2527, 16, 41, 3887, 16, 4169, ⟨[[(0, 412316860416)], [(352187318272, 0)]], 3, 4⟩, ⟨[[(546402628782,
    0), (3541023057849, 0), (308801897, 0), (1459759, 0), (1157, 0)], [(132869134040, 0), (200036495, 0), (147716,
    0), (50, 0)], [(0, 2985323), (0, 11219), (0, 34)], [(0, 340), (0, 2)]], 3, 4⟩, 1099511627776, 0, 162820,
    ⟨[[(63363415662228, 0), (0, 8182317006), (1865697, 0), (6330, 0), (34, 0)], [(3100016185, 0), (877989, 0), (6062,
    0), (46, 0)], [(0, 513696), (1796, 0), (22, 0)], [(309, 0), (5, 0)]], 3, 4⟩, 68719476736, 652905,
    1579135015363504520942889781961798922841554514246123155669615827738695036434903628123301876649, lc0⟩) (.sx (.leaf
    ⟨5038, 16, 82, 4799, 16, 5125, ⟨[[(0, 137438953472)], [(352187318272, 0)]], 3, 4⟩, ⟨[[(123691628026, 0),
    (4351808651247, 0), (407818547, 0), (1828190, 0), (1516, 0)], [(82499506306, 0), (124387782, 0), (92403, 0), (35,
    0)], [(0, 930757), (0, 3534), (0, 11)], [(0, 54)]], 3, 4⟩, 1099511627776, 0, 129861, ⟨[[(63201459059517, 0), (0,
    6607238046), (1443055, 0), (4582, 0), (19, 0)], [(1562212800, 0), (440694, 0), (2744, 0), (16, 0)], [(0, 121483),
    (514, 0), (5, 0)], [(48, 0), (1, 0)]], 3, 4⟩, 68719476736, 203195,
    2274313587546542627613932892290963533646462798622092093408784796407164550268571725471299630342, lc0⟩) (.out
    ⟨5169, 16, 81, 8343, 16, 5019, ⟨[[(0, 206158430208)], [(347892350976, 0)]], 1, 1⟩, ⟨[[(0, 548979687566), (0,
    4273462614469)], [(0, 80616702957), (0, 121142786)]], 1, 1⟩, 1099511627776, 0, 6013732158, ⟨[], 0, 0⟩, 0, 0, 0,
    lc0⟩ 0 1 146123642346)))))) (.sx (.sy (.leaf ⟨1195, 16, 20, 1937, 16, 2067, ⟨[[], [(343597383680, 0)]], 3, 4⟩,
    ⟨[[(0, 409753291233), (3472131361327, 0), (670392832, 0), (6014544, 0), (10441, 0)], [(136203196029, 0),
    (416584200, 0), (662497, 0), (775, 0), (3, 0)], [(0, 5736696), (0, 43003), (0, 259), (0, 1)], [(0, 1498), (0,
    16)]], 3, 4⟩, 1099511627776, 0, 571042, ⟨[[(62958196676922, 0), (0, 16491651279), (7226058, 0), (44951, 0), (506,
    0)], [(6558489764, 0), (3474158, 0), (44391, 0), (710, 0), (6, 0)], [(0, 2317074), (13628, 0), (361, 0), (4, 0)],
    [(2638, 0), (78, 0), (1, 0)]], 3, 4⟩, 68719476736, 6812846,
    3900193061703571689356237993929842289674743844094979120288694955591392955584008117038268484367, lc0⟩) (.sx (.sy
    (.leaf ⟨2434, 16, 41, 3885, 16, 4123, ⟨[[(412316860416, 0)], [(352187318272, 0)]], 3, 4⟩, ⟨[[(330777749827, 0),
    (3459137126709, 0), (367308127, 0), (1543315, 0), (1399, 0)], [(138005306521, 0), (211807581, 0), (171136, 0),
    (110, 0)], [(0, 2903322), (0, 11019), (0, 34)], [(0, 394), (0, 2)]], 3, 4⟩, 1099511627776, 0, 148314,
    ⟨[[(62732064111252, 0), (0, 8198795188), (2145709, 0), (8005, 0), (42, 0)], [(3236535995, 0), (1067516, 0),
    (7874, 0), (58, 0)], [(0, 524900), (2442, 0), (29, 0)], [(395, 0), (6, 0)]], 3, 4⟩, 68719476736, 746650,
    2371984734366804855180401042584158451591970626429008833628837871797652482901696815993608765603, lc0⟩) (.out
    ⟨2455, 16, 40, 6655, 16, 4026, ⟨[[], [(343597383680, 0)]], 1, 1⟩, ⟨[[(288699426206, 0), (0, 3382223485557)], [(0,
    136005502799), (0, 208841500)]], 1, 1⟩, 1099511627776, 0, 10550865793, ⟨[], 0, 0⟩, 0, 0, 0, lc0⟩ 0 1
    217131034500)) (.out ⟨2485, 16, 40, 4126, 16, 2497, ⟨[[], [(343597383680, 0)]], 1, 1⟩, ⟨[[(135347867525, 0), (0,
    4217234770912)], [(0, 83617339468), (0, 255117728)]], 1, 1⟩, 1099511627776, 0, 13837219627, ⟨[], 0, 0⟩, 0, 0, 0,
    lc0⟩ 0 1 312953026523))) (.sy (.sx (.sy (.leaf ⟨2496, 16, 41, 3889, 16, 4142, ⟨[[(0, 137438953472)],
    [(352187318272, 0)]], 3, 4⟩, ⟨[[(0, 3211528208), (3506559886464, 0), (345448470, 0), (1503115, 0), (1292, 0)],
    [(135000843737, 0), (204533471, 0), (155508, 0), (72, 0)], [(0, 3000357), (0, 11425), (0, 35)], [(0, 364), (0,
    2)]], 3, 4⟩, 1099511627776, 0, 117009, ⟨[[(63043709408768, 0), (0, 8153961392), (2289989, 0), (9172, 0), (47,
    0)], [(3158509033, 0), (1150761, 0), (8963, 0), (63, 0)], [(0, 485767), (2748, 0), (31, 0)], [(412, 0), (6, 0)]],
    3, 4⟩, 68719476736, 803223,
    3619172733504677968108648935268488503385555679396874805913607282780443580084957659034416493211, lc0⟩) (.out
    ⟨2515, 16, 40, 6702, 16, 4046, ⟨[[], [(343597383680, 0)]], 1, 1⟩, ⟨[[(39577184796, 0), (0, 3429496597055)], [(0,
    133076142513), (0, 201623467)]], 1, 1⟩, 1099511627776, 0, 10572361690, ⟨[], 0, 0⟩, 0, 0, 0, lc0⟩ 0 1
    251188886544)) (.out ⟨2545, 16, 40, 4135, 16, 2497, ⟨[[], [(343597383680, 0)]], 1, 1⟩, ⟨[[(0, 186616694126), (0,
    4254050365740)], [(0, 81398422935), (0, 244972616)]], 1, 1⟩, 1099511627776, 0, 13349744344, ⟨[], 0, 0⟩, 0, 0, 0,
    lc0⟩ 0 1 341861717685)) (.out ⟨1265, 16, 20, 3304, 16, 2005, ⟨[[], [(343597383680, 0)]], 1, 1⟩, ⟨[[(397610407682,
    0), (0, 3415539079346)], [(0, 133404713340), (0, 402802559)]], 1, 1⟩, 1099511627776, 0, 23437983750, ⟨[], 0, 0⟩,
    0, 0, 0, lc0⟩ 0 1 574851334171)))
theorem c69 : checkC job ⟨6, 8, 8, 10, 9, 13⟩ 3 100 lims t69 2000 48 32 45 3 512 = true := by decide +kernel

def t70 : CTree :=
  .sx (.leaf ⟨520, 25, 8, 461, 16, 549, ⟨[[], [(549755813888, 0)]], 3, 4⟩, ⟨[[(0, 529565311818), (3792140582403, 0),
    (0, 1401900476), (87703174, 0), (0, 136467)], [(112406734798, 0), (1324459419, 0), (7968457, 0), (28364, 0), (0,
    1455)], [(0, 18099231), (0, 438403), (0, 7322), (0, 182), (0, 4)], [(0, 11380), (0, 363), (0, 9)]], 3, 4⟩,
    1099511627776, 0, 30628292, ⟨[[(67102980375776, 0), (0, 68739564741), (64211064, 0), (111089, 0), (0, 640)],
    [(14071810070, 0), (22833155, 0), (0, 24282), (0, 656), (0, 30)], [(0, 11700739), (0, 43712), (0, 194), (0, 11)],
    [(8776, 0), (39, 0), (0, 2)]], 3, 4⟩, 68719476736, 70124354,
    2777893739317653741128605320092906649876354617807910532511960138161100515974112738553373887225, lc0⟩) (.sy (.leaf
    ⟨568, 25, 8, 710, 16, 839, ⟨[[], [(549755813888, 0)]], 3, 4⟩, ⟨[[(404558488929, 0), (2993566814809, 0), (0,
    425833663), (17269391, 0), (0, 30811)], [(163215044018, 0), (926100131, 0), (2429152, 0), (0, 215), (0, 229)],
    [(0, 31117226), (0, 384246), (0, 3317), (0, 47), (0, 1)], [(0, 14132), (0, 191), (0, 3)]], 3, 4⟩, 1099511627776,
    0, 45234129, ⟨[[(67510093725782, 0), (0, 44032544602), (26856772, 0), (3958, 0), (0, 511)], [(13072393854, 0),
    (11987599, 0), (0, 34125), (0, 637), (0, 4)], [(0, 10700305), (0, 29425), (0, 254), (0, 2)], [(7231, 0), (0,
    6)]], 3, 4⟩, 68719476736, 26531816,
    2091587666335372161212422425536564431020977407582430100232306993597033374807458536006642842244, lc0⟩) (.leaf
    ⟨568, 25, 8, 715, 16, 826, ⟨[[], [(549755813888, 0)]], 3, 4⟩, ⟨[[(476429540630, 0), (2943961767812, 0), (0,
    119725930), (16284837, 0), (0, 28355)], [(166242344845, 0), (940230208, 0), (2338828, 0), (0, 5621), (0, 220)],
    [(0, 33033041), (0, 422916), (0, 4209), (0, 58)], [(0, 15156), (0, 229), (0, 4)]], 3, 4⟩, 1099511627776, 0,
    50836155, ⟨[[(66801506933992, 0), (0, 43844521974), (27108539, 0), (0, 24242), (0, 31)], [(13255435379, 0),
    (10546221, 0), (0, 62727), (0, 113), (31, 0)], [(0, 11243646), (0, 36901), (0, 26), (17, 0), (1, 0)], [(7305, 0),
    (42, 0), (5, 0)]], 3, 4⟩, 68719476736, 124072148,
    3209356581116833804845103864957778179650838509222613226552357332859658807759586967690840147426, lc0⟩))
theorem c70 : checkC job ⟨6, 8, 8, 10, 9, 13⟩ 3 100 lims t70 560 48 8 27 3 512 = true := by decide +kernel

def t71 : CTree :=
  .sx (.leaf ⟨635, 16, 10, 570, 16, 654, ⟨[[], [(343597383680, 0)]], 3, 4⟩, ⟨[[(68946471116, 0), (4467513494585, 0),
    (0, 58861906), (101915816, 0), (24325, 0)], [(72446340760, 0), (862127733, 0), (5185739, 0), (5685, 0), (0,
    513)], [(0, 5961400), (0, 152736), (0, 3114), (0, 75), (0, 1)], [(0, 2147), (0, 77), (0, 2)]], 3, 4⟩,
    1099511627776, 0, 5755880, ⟨[[(65745787927071, 0), (0, 55972243133), (48261334, 0), (1803, 0), (0, 1419)],
    [(11810448682, 0), (14860748, 0), (0, 57144), (0, 1207), (0, 3)], [(0, 8268256), (0, 32747), (0, 323)], [(4791,
    0), (0, 7)]], 3, 4⟩, 68719476736, 43516894,
    2396858250608670046663075113352563471530228746895045179066265531621967286519180388489981815200, lc0⟩) (.leaf
    ⟨665, 16, 10, 570, 16, 647, ⟨[[], [(343597383680, 0)]], 3, 4⟩, ⟨[[(184386971369, 0), (4500115345976, 0),
    (403980323, 0), (100634078, 0), (0, 33515)], [(70481160365, 0), (821819544, 0), (4479164, 0), (0, 10093), (0,
    693)], [(0, 6488765), (0, 172408), (0, 3706), (0, 90), (0, 1)], [(0, 1978), (0, 71), (0, 2)]], 3, 4⟩,
    1099511627776, 0, 6686589, ⟨[[(65751926833286, 0), (0, 55584745741), (46497092, 0), (0, 45464), (499, 0)],
    [(11403270643, 0), (12018914, 0), (0, 84363), (358, 0), (91, 0)], [(0, 8068491), (0, 34328), (147, 0), (35, 0),
    (1, 0)], [(4457, 0), (53, 0), (6, 0)]], 3, 4⟩, 68719476736, 245999691,
    3343872244317986386778545379934679983210985754066584769804810753020843307898369582113288918625, lc0⟩)
theorem c71 : checkC job ⟨6, 8, 8, 10, 9, 13⟩ 3 100 lims t71 1072 48 16 33 3 512 = true := by decide +kernel

def t72 : CTree :=
  .sx (.leaf ⟨695, 16, 10, 952, 16, 1080, ⟨[[], [(343597383680, 0)]], 3, 4⟩, ⟨[[(0, 543721442478), (3818921978654,
    0), (146652887, 0), (20803320, 0), (0, 19931)], [(113525767363, 0), (647247091, 0), (1595223, 0), (0, 4806), (0,
    108)], [(0, 11277923), (0, 150035), (0, 1626), (0, 21)], [(0, 2870), (0, 49), (0, 1)]], 3, 4⟩, 1099511627776, 0,
    4869349, ⟨[[(66069288383135, 0), (0, 33083818333), (15903460, 0), (2718, 0), (655, 0)], [(10934365875, 0),
    (6073017, 0), (0, 18056), (803, 0), (27, 0)], [(0, 7677136), (0, 15180), (370, 0), (16, 0)], [(4540, 0), (89, 0),
    (5, 0)]], 3, 4⟩, 68719476736, 41325936,
    1986587110084936561827760494710506334948333971895925365321354930886088504732673720018028473080, lc0⟩) (.sy (.leaf
    ⟨725, 16, 10, 1456, 16, 1645, ⟨[[], [(343597383680, 0)]], 3, 4⟩, ⟨[[(190377611884, 0), (2954082489347, 0),
    (73480850, 0), (3873090, 0), (0, 3388)], [(168095928946, 0), (467066372, 0), (494382, 0), (0, 1577), (0, 13)],
    [(0, 18006941), (0, 120311), (0, 674), (0, 4)], [(0, 3832), (0, 31)]], 3, 4⟩, 1099511627776, 0, 7147146,
    ⟨[[(66261932899010, 0), (0, 21525041070), (7133291, 0), (22230, 0), (473, 0)], [(10508274842, 0), (3765138, 0),
    (21173, 0), (861, 0), (12, 0)], [(0, 7242975), (3417, 0), (561, 0), (11, 0)], [(5993, 0), (163, 0), (4, 0)]], 3,
    4⟩, 68719476736, 14564094,
    1840832169425070851886166760440130227551197474668204558644555511886861908743190363590777746640, lc0⟩) (.sx (.leaf
    ⟨1435, 16, 20, 1925, 16, 2156, ⟨[[], [(343597383680, 0)]], 3, 4⟩, ⟨[[(0, 279359401285), (3858464666955, 0),
    (171659408, 0), (5038095, 0), (0, 2950)], [(112589679114, 0), (313860035, 0), (326965, 0), (0, 1082), (0, 7)],
    [(0, 6048426), (0, 41382), (0, 239), (0, 1)], [(0, 680), (0, 6)]], 3, 4⟩, 1099511627776, 0, 699718,
    ⟨[[(65909092635767, 0), (0, 16299458355), (4724196, 0), (19972, 0), (260, 0)], [(5334787509, 0), (1728964, 0),
    (15495, 0), (318, 0), (3, 0)], [(0, 1818774), (3339, 0), (138, 0), (2, 0)], [(1025, 0), (26, 0)]], 3, 4⟩,
    68719476736, 3987410,
    1666847881433799902740921291543803979482732050209177234519255900310483091738075795188085852221, lc0⟩) (.sy (.leaf
    ⟨1465, 16, 20, 2937, 16, 3282, ⟨[[], [(343597383680, 0)]], 3, 4⟩, ⟨[[(0, 239018099613), (2959005781766, 0),
    (67968724, 0), (940610, 0), (0, 380)], [(168898089515, 0), (232072953, 0), (108650, 0), (0, 253), (0, 1)], [(0,
    9399450), (0, 32194), (0, 95)], [(0, 963), (0, 4)]], 3, 4⟩, 1099511627776, 0, 970517, ⟨[[(65996747457095, 0), (0,
    10639055196), (2494040, 0), (10815, 0), (79, 0)], [(5237854485, 0), (1478593, 0), (13522, 0), (145, 0), (1, 0)],
    [(0, 1688533), (5077, 0), (93, 0), (1, 0)], [(1372, 0), (25, 0)]], 3, 4⟩, 68719476736, 1609163,
    1788210779056949877776834128265275613422826807387654678199211314722478962953923417107640905322, lc0⟩) (.leaf
    ⟨1465, 16, 20, 2940, 16, 3268, ⟨[[], [(343597383680, 0)]], 3, 4⟩, ⟨[[(369354788232, 0), (2947296560172, 0),
    (84460356, 0), (928279, 0), (0, 314)], [(169567959708, 0), (232353403, 0), (103495, 0), (0, 269), (0, 1)], [(0,
    9555155), (0, 33221), (0, 100)], [(0, 985), (0, 4)]], 3, 4⟩, 1099511627776, 0, 1083829, ⟨[[(65831485502366, 0),
    (0, 10597262910), (3157516, 0), (16954, 0), (114, 0)], [(5264805353, 0), (2028765, 0), (21864, 0), (209, 0), (1,
    0)], [(0, 1583675), (8612, 0), (134, 0), (1, 0)], [(1845, 0), (36, 0)]], 3, 4⟩, 68719476736, 1610390,
    3540945390585851301499852575412166710333389473926352753202554084710433825737267817921519838982, lc0⟩))))
theorem c72 : checkC job ⟨6, 8, 8, 10, 9, 13⟩ 3 100 lims t72 1168 48 16 63 3 1024 = true := by decide +kernel

def t73 : CTree :=
  .sy (.leaf ⟨695, 16, 10, 1445, 16, 1614, ⟨[[], [(343597383680, 0)]], 3, 4⟩, ⟨[[(370056682374, 0), (2855509352055,
    0), (159001621, 0), (3840766, 0), (0, 588)], [(174058246636, 0), (494119322, 0), (567217, 0), (0, 1219), (0, 8)],
    [(0, 17915286), (0, 124008), (0, 716), (0, 4)], [(0, 4647), (0, 43)]], 3, 4⟩, 1099511627776, 0, 7063549,
    ⟨[[(65579454193433, 0), (0, 21809832688), (7906993, 0), (29320, 0), (583, 0)], [(11025285555, 0), (4384991, 0),
    (31968, 0), (1102, 0), (15, 0)], [(0, 7749080), (7934, 0), (743, 0), (14, 0)], [(7359, 0), (220, 0), (6, 0)]], 3,
    4⟩, 68719476736, 18023296,
    2262055475997404875145887131709345701550130663215303896821336790338284009170004937562150400468, lc0⟩) (.sx (.leaf
    ⟨1375, 16, 20, 1931, 16, 2139, ⟨[[], [(343597383680, 0)]], 3, 4⟩, ⟨[[(0, 1670325990), (3771394937580, 0),
    (284380230, 0), (5128661, 0), (824, 0)], [(117904404489, 0), (336019146, 0), (385078, 0), (0, 778), (0, 4)], [(0,
    6072311), (0, 42936), (0, 253), (0, 1)], [(0, 834), (0, 8)]], 3, 4⟩, 1099511627776, 0, 712365,
    ⟨[[(65234252876130, 0), (0, 16331003384), (5134777, 0), (23279, 0), (292, 0)], [(5599816979, 0), (2009909, 0),
    (19462, 0), (373, 0), (4, 0)], [(0, 1938580), (4636, 0), (169, 0), (2, 0)], [(1252, 0), (33, 0), (1, 0)]], 3, 4⟩,
    68719476736, 4632780,
    1760763820158603745837387941662769053985763583394471741289831190221564337087010557023216942625, lc0⟩) (.sy (.leaf
    ⟨1405, 16, 20, 2914, 16, 3219, ⟨[[], [(343597383680, 0)]], 3, 4⟩, ⟨[[(0, 457520240701), (2861077873288, 0),
    (111467161, 0), (947945, 0), (6, 0)], [(174908384161, 0), (245709741, 0), (127655, 0), (0, 194)], [(0, 9390292),
    (0, 33414), (0, 100)], [(0, 1179), (0, 6)]], 3, 4⟩, 1099511627776, 0, 1050755, ⟨[[(65314017000179, 0), (0,
    10764406848), (2890794, 0), (13566, 0), (97, 0)], [(5500783808, 0), (1837681, 0), (17840, 0), (183, 0), (1, 0)],
    [(0, 1765132), (7098, 0), (121, 0), (1, 0)], [(1760, 0), (34, 0)]], 3, 4⟩, 68719476736, 1524834,
    2385746769924473741477720312087086656516536682720643222919358530936880743000693166355894599737, lc0⟩) (.sx (.leaf
    ⟨2865, 16, 41, 3882, 16, 4272, ⟨[[(0, 137438953472)], [(352187318272, 0)]], 3, 4⟩, ⟨[[(313357573794, 0),
    (3791004807253, 0), (166551768, 0), (1265656, 0), (118, 0)], [(117347700485, 0), (165142139, 0), (85654, 0), (0,
    126)], [(0, 3154052), (0, 11351), (0, 34)], [(0, 204), (0, 1)]], 3, 4⟩, 1099511627776, 0, 94833,
    ⟨[[(65153396553970, 0), (0, 8070914026), (1843151, 0), (7178, 0), (37, 0)], [(2706788701, 0), (795632, 0), (6242,
    0), (45, 0)], [(0, 408639), (1656, 0), (20, 0)], [(241, 0), (4, 0)]], 3, 4⟩, 68719476736, 603563,
    2032358551237775122952203785391641774488864571472540361569621642153962116269267395149693749760, lc0⟩) (.sy (.leaf
    ⟨2896, 16, 41, 5852, 16, 6431, ⟨[[(0, 412316860416)], [(352187318272, 0)]], 3, 4⟩, ⟨[[(0, 114671874378),
    (2864924730387, 0), (63534339, 0), (235636, 0), (7, 0)], [(175365639086, 0), (122460999, 0), (29958, 0), (0,
    27)], [(0, 4809247), (0, 8680), (0, 13)], [(0, 297), (0, 1)]], 3, 4⟩, 1099511627776, 0, 236673,
    ⟨[[(65193698898580, 0), (0, 5328631948), (972814, 0), (2834, 0), (9, 0)], [(2687290623, 0), (660901, 0), (3723,
    0), (17, 0)], [(0, 373528), (1502, 0), (11, 0)], [(290, 0), (3, 0)]], 3, 4⟩, 68719476736, 190125,
    3410115899770108491826452644349658576406442694122528618717520139316774069747802446593430398637, lc0⟩) (.sx (.leaf
    ⟨5776, 16, 82, 7787, 16, 8540, ⟨[[(0, 137438953472)], [(352187318272, 0)]], 3, 4⟩, ⟨[[(0, 397613804943),
    (3801581324706, 0), (89055139, 0), (314054, 0), (16, 0)], [(117080944520, 0), (81828229, 0), (19997, 0), (0,
    18)], [(0, 1606814), (0, 2917), (0, 4)], [(0, 50)]], 3, 4⟩, 1099511627776, 0, 108854, ⟨[[(65108537082301, 0), (0,
    3998692261), (594591, 0), (1346, 0), (3, 0)], [(1350740500, 0), (274735, 0), (1184, 0), (4, 0)], [(0, 90425),
    (320, 0), (2, 0)], [(40, 0)]], 3, 4⟩, 68719476736, 84303,
    3567797057127194407022899179991193685505271896749610357776399250373649612061758420619545114889, lc0⟩) (.out
    ⟨5898, 16, 81, 14122, 16, 8371, ⟨[[(0, 206158430208)], [(347892350976, 0)]], 1, 1⟩, ⟨[[(50806517288, 0), (0,
    3734024567005)], [(0, 114460239759), (0, 79656602)]], 1, 1⟩, 1099511627776, 0, 4540380319, ⟨[], 0, 0⟩, 0, 0, 0,
    lc0⟩ 0 1 163384446994))))))
theorem c73 : checkC job ⟨6, 8, 8, 10, 9, 13⟩ 3 100 lims t73 2288 48 32 69 3 1024 = true := by decide +kernel

def t74 : CTree :=
  .sx (.sy (.leaf ⟨1435, 16, 20, 2926, 16, 3251, ⟨[[], [(343597383680, 0)]], 3, 4⟩, ⟨[[(124052379449, 0),
    (2910455245383, 0), (90229738, 0), (941264, 0), (0, 183)], [(171911807632, 0), (238799557, 0), (117436, 0), (0,
    227), (0, 1)], [(0, 9408640), (0, 32892), (0, 98)], [(0, 1067), (0, 5)]], 3, 4⟩, 1099511627776, 0, 977070,
    ⟨[[(65658220771450, 0), (0, 10700099371), (2685880, 0), (12139, 0), (88, 0)], [(5366605011, 0), (1649862, 0),
    (15583, 0), (163, 0), (1, 0)], [(0, 1726813), (6029, 0), (107, 0), (1, 0)], [(1555, 0), (29, 0)]], 3, 4⟩,
    68719476736, 1528841,
    2116643989330766052365960630485758190029958946076848231896826548963330883079503198958221764460, lc0⟩) (.sx (.leaf
    ⟨2926, 16, 41, 3877, 16, 4290, ⟨[[(412316860416, 0)], [(352187318272, 0)]], 3, 4⟩, ⟨[[(267588962343, 0),
    (3834549445548, 0), (137714464, 0), (1244771, 0), (0, 131)], [(114678084846, 0), (159546494, 0), (77950, 0), (0,
    149)], [(0, 3143929), (0, 11124), (0, 33)], [(0, 184), (0, 1)]], 3, 4⟩, 1099511627776, 0, 186271,
    ⟨[[(65488463286236, 0), (0, 8067044812), (1747872, 0), (6701, 0), (35, 0)], [(2641220925, 0), (728615, 0), (5679,
    0), (42, 0)], [(0, 400092), (1465, 0), (18, 0)], [(216, 0), (3, 0)]], 3, 4⟩, 68719476736, 517663,
    1590153037880403788263987922972942469047522575595517097966091440428222630978455167920893843745, lc0⟩) (.sy (.leaf
    ⟨2957, 16, 41, 5876, 16, 6494, ⟨[[(137438953472, 0)], [(352187318272, 0)]], 3, 4⟩, ⟨[[(390671466756, 0),
    (2913471994240, 0), (52735590, 0), (232862, 0), (0, 18)], [(172315795245, 0), (118959321, 0), (27312, 0), (0,
    31)], [(0, 4812371), (0, 8529), (0, 13)], [(0, 268), (0, 1)]], 3, 4⟩, 1099511627776, 0, 276536,
    ⟨[[(65531858905936, 0), (0, 5300711246), (900244, 0), (2569, 0), (8, 0)], [(2621150799, 0), (592832, 0), (3310,
    0), (15, 0)], [(0, 370051), (1307, 0), (10, 0)], [(257, 0), (3, 0)]], 3, 4⟩, 68719476736, 227389,
    2671661394925510598640812124311262130091521153872463517008192133480496437853351368211841525783, lc0⟩) (.sx (.leaf
    ⟨5899, 16, 82, 7776, 16, 8576, ⟨[[(0, 137438953472)], [(352187318272, 0)]], 3, 4⟩, ⟨[[(377465605574, 0),
    (3844623380707, 0), (74315882, 0), (308029, 0), (0, 16)], [(114406222845, 0), (79037767, 0), (18076, 0), (0,
    21)], [(0, 1599365), (0, 2852), (0, 4)], [(0, 45)]], 3, 4⟩, 1099511627776, 0, 84424, ⟨[[(65447505608453, 0), (0,
    4000081481), (558228, 0), (1250, 0), (3, 0)], [(1317126434, 0), (249094, 0), (1073, 0), (4, 0)], [(0, 89756),
    (283, 0), (2, 0)], [(35, 0)]], 3, 4⟩, 68719476736, 98704,
    2869891184032355395159355421085629262857667781937413410717454132950006034491895523192930858558, lc0⟩) (.out
    ⟨6019, 16, 81, 14224, 16, 8406, ⟨[[(343597383680, 0)], [(347892350976, 0)]], 1, 1⟩, ⟨[[(0, 409568055840), (0,
    3775823689481)], [(0, 111836164083), (0, 76931341)]], 1, 1⟩, 1099511627776, 0, 4385382121, ⟨[], 0, 0⟩, 0, 0, 0,
    lc0⟩ 0 1 122563265974))))) (.sy (.sx (.sy (.leaf ⟨2988, 16, 41, 5888, 16, 6526, ⟨[[(0, 137438953472)],
    [(352187318272, 0)]], 3, 4⟩, ⟨[[(350431184380, 0), (2937992968370, 0), (47178687, 0), (232065, 0), (0, 31)],
    [(170818046927, 0), (117269718, 0), (26141, 0), (0, 33)], [(0, 4809521), (0, 8438), (0, 13)], [(0, 255), (0,
    1)]], 3, 4⟩, 1099511627776, 0, 288799, ⟨[[(65702139881057, 0), (0, 5286667609), (864042, 0), (2437, 0), (8, 0)],
    [(2588519547, 0), (559608, 0), (3107, 0), (14, 0)], [(0, 368234), (1214, 0), (9, 0)], [(241, 0), (2, 0)]], 3, 4⟩,
    68719476736, 181319,
    2257929623965559610460647838254908450255059844780558046394614314441250734914935370265318447140, lc0⟩) (.sx (.leaf
    ⟨5960, 16, 82, 7770, 16, 8594, ⟨[[(412316860416, 0)], [(352187318272, 0)]], 3, 4⟩, ⟨[[(470188988984, 0),
    (3866058563935, 0), (66804660, 0), (305774, 0), (0, 33)], [(113091206823, 0), (77690488, 0), (17224, 0), (0,
    22)], [(0, 1594073), (0, 2815), (0, 4)], [(0, 43)]], 3, 4⟩, 1099511627776, 0, 70639, ⟨[[(65616556448798, 0), (0,
    4001355756), (537792, 0), (1194, 0), (3, 0)], [(1300785390, 0), (235411, 0), (1012, 0), (3, 0)], [(0, 89586),
    (263, 0), (1, 0)], [(33, 0)]], 3, 4⟩, 68719476736, 102634,
    2467287494155437940530641525466452979330597406645632178764285134712519200565957539583195589508, lc0⟩) (.out
    ⟨6080, 16, 81, 14276, 16, 8424, ⟨[[(68719476736, 0)], [(347892350976, 0)]], 1, 1⟩, ⟨[[(16902486088, 0), (0,
    3796868361407)], [(0, 110552959461), (0, 75621271)]], 1, 1⟩, 1099511627776, 0, 4303559892, ⟨[], 0, 0⟩, 0, 0, 0,
    lc0⟩ 0 1 101683559893))) (.sy (.sx (.leaf ⟨6022, 16, 82, 7773, 16, 8599, ⟨[[(0, 137438953472)], [(352187318272,
    0)]], 3, 4⟩, ⟨[[(513103883357, 0), (3882321254487, 0), (64557296, 0), (302495, 0), (0, 44)], [(112080536377, 0),
    (76453930, 0), (15998, 0), (0, 24)], [(0, 1602238), (0, 2821), (0, 4)], [(0, 41)]], 3, 4⟩, 1099511627776, 0,
    51129, ⟨[[(65702927358458, 0), (0, 3985201624), (599166, 0), (1401, 0), (3, 0)], [(1289662615, 0), (267255, 0),
    (1183, 0), (4, 0)], [(0, 83574), (307, 0), (2, 0)], [(36, 0)]], 3, 4⟩, 68719476736, 93717,
    3837149316881665464389668371973660398271363581346202889924350803092111554089283052451859883487, lc0⟩) (.out
    ⟨6141, 16, 81, 14286, 16, 8429, ⟨[[(0, 206158430208)], [(347892350976, 0)]], 1, 1⟩, ⟨[[(36831004384, 0), (0,
    3812737683306)], [(0, 109562079847), (0, 74409058)]], 1, 1⟩, 1099511627776, 0, 4299224285, ⟨[], 0, 0⟩, 0, 0, 0,
    lc0⟩ 0 1 170154295648)) (.out ⟨3025, 16, 40, 10823, 16, 6393, ⟨[[], [(343597383680, 0)]], 1, 1⟩,
    ⟨[[(162076387332, 0), (0, 2889675272359)], [(0, 167105822635), (0, 113551161)]], 1, 1⟩, 1099511627776, 0,
    11803366271, ⟨[], 0, 0⟩, 0, 0, 0, lc0⟩ 0 1 223400192094))) (.out ⟨1505, 16, 20, 5379, 16, 3182, ⟨[[],
    [(343597383680, 0)]], 1, 1⟩, ⟨[[(0, 100020725735), (0, 2872098422439)], [(0, 167834555852), (0, 228539717)]], 1,
    1⟩, 1099511627776, 0, 24187216978, ⟨[], 0, 0⟩, 0, 0, 0, lc0⟩ 0 1 279468123552))
theorem c74 : checkC job ⟨6, 8, 8, 10, 9, 13⟩ 3 100 lims t74 2384 48 32 135 3 2048 = true := by decide +kernel

def t75 : CTree :=
  .sx (.sy (.sx (.sy (.leaf ⟨2926, 16, 41, 5865, 16, 6463, ⟨[[(412316860416, 0)], [(352187318272, 0)]], 3, 4⟩, ⟨[[(0,
    199977836390), (2889416313264, 0), (58191799, 0), (234088, 0), (0, 5)], [(173849591158, 0), (120702086, 0),
    (28587, 0), (0, 29)], [(0, 4812863), (0, 8611), (0, 13)], [(0, 283), (0, 1)]], 3, 4⟩, 1099511627776, 0, 266560,
    ⟨[[(65359383580591, 0), (0, 5313611404), (938383, 0), (2709, 0), (9, 0)], [(2654574512, 0), (628422, 0), (3527,
    0), (16, 0)], [(0, 371526), (1408, 0), (10, 0)], [(274, 0), (3, 0)]], 3, 4⟩, 68719476736, 195300,
    3059714730503434551455039462147022795222684446485211822796472349480074702182011873541229719334, lc0⟩) (.sx (.leaf
    ⟨5837, 16, 82, 7782, 16, 8558, ⟨[[(412316860416, 0)], [(352187318272, 0)]], 3, 4⟩, ⟨[[(0, 277442921291),
    (3823133685109, 0), (81731354, 0), (310804, 0)], [(115736158125, 0), (80416916, 0), (19000, 0), (0, 19)], [(0,
    1603644), (0, 2886), (0, 4)], [(0, 48)]], 3, 4⟩, 1099511627776, 0, 84162, ⟨[[(65275955980841, 0), (0,
    3998962614), (577791, 0), (1302, 0), (3, 0)], [(1333987821, 0), (262613, 0), (1132, 0), (4, 0)], [(0, 90000),
    (302, 0), (2, 0)], [(38, 0)]], 3, 4⟩, 68719476736, 90373,
    3240544210940597007432120871277873359438729058684126240451071067876370570560775924400086606258, lc0⟩) (.out
    ⟨5959, 16, 81, 14173, 16, 8389, ⟨[[(0, 481036337152)], [(347892350976, 0)]], 1, 1⟩, ⟨[[(473754640394, 0), (0,
    3755177349163)], [(0, 113147537675), (0, 78282500)]], 1, 1⟩, 1099511627776, 0, 4464738179, ⟨[], 0, 0⟩, 0, 0, 0,
    lc0⟩ 0 1 147475068746))) (.out ⟨2965, 16, 40, 7080, 16, 4192, ⟨[[], [(343597383680, 0)]], 1, 1⟩,
    ⟨[[(260141902324, 0), (0, 3763647887474)], [(0, 112388864580), (0, 154610974)]], 1, 1⟩, 1099511627776, 0,
    9122280027, ⟨[], 0, 0⟩, 0, 0, 0, lc0⟩ 0 1 223376620194)) (.out ⟨1475, 16, 20, 5309, 16, 3150, ⟨[[],
    [(343597383680, 0)]], 1, 1⟩, ⟨[[(0, 443460942427), (0, 2824065992502)], [(0, 170771345202), (0, 235251691)]], 1,
    1⟩, 1099511627776, 0, 24446238795, ⟨[], 0, 0⟩, 0, 0, 0, lc0⟩ 0 1 316565641761)) (.out ⟨1505, 16, 20, 3512, 16,
    2087, ⟨[[], [(343597383680, 0)]], 1, 1⟩, ⟨[[(523886588986, 0), (0, 3770474291610)], [(0, 111432520011), (0,
    301836970)]], 1, 1⟩, 1099511627776, 0, 19664369509, ⟨[], 0, 0⟩, 0, 0, 0, lc0⟩ 0 1 561831897284)
theorem c75 : checkC job ⟨6, 8, 8, 10, 9, 13⟩ 3 100 lims t75 2384 48 32 141 3 2048 = true := by decide +kernel

def t76 : CTree :=
  .sx (.leaf ⟨635, 16, 10, 958, 16, 1065, ⟨[[], [(343597383680, 0)]], 3, 4⟩, ⟨[[(110018204384, 0), (3642173226578,
    0), (541148047, 0), (21273700, 0), (28912, 0)], [(124463759270, 0), (740120942, 0), (2123648, 0), (32, 0), (0,
    9)], [(0, 10941428), (0, 151146), (0, 1722), (0, 18)], [(0, 4141), (0, 81), (0, 1)]], 3, 4⟩, 1099511627776, 0,
    4527124, ⟨[[(64737912477711, 0), (0, 33302855853), (17635049, 0), (2244, 0), (653, 0)], [(12057529484, 0),
    (7435676, 0), (0, 19294), (903, 0), (30, 0)], [(0, 8915446), (0, 18003), (472, 0), (20, 0)], [(5704, 0), (122,
    0), (6, 0)]], 3, 4⟩, 68719476736, 45398421,
    1769420255351548167513177602863311979183385623243612937571457785477602032086814595688174413235, lc0⟩) (.sy (.leaf
    ⟨665, 16, 10, 1433, 16, 1583, ⟨[[], [(343597383680, 0)]], 3, 4⟩, ⟨[[(0, 448033391750), (2757034823856, 0),
    (235406221, 0), (3892930, 0), (1991, 0)], [(180137368773, 0), (522892371, 0), (660287, 0), (0, 672), (0, 3)],
    [(0, 17597264), (0, 124883), (0, 732), (0, 4)], [(0, 5578), (0, 55)]], 3, 4⟩, 1099511627776, 0, 6911315,
    ⟨[[(64891110708694, 0), (0, 22113441776), (8664028, 0), (34933, 0), (677, 0)], [(11581812011, 0), (5040597, 0),
    (41277, 0), (1323, 0), (18, 0)], [(0, 8315847), (12156, 0), (924, 0), (17, 0)], [(8807, 0), (280, 0), (7, 0)]],
    3, 4⟩, 68719476736, 21186826,
    2527896533870105311956580973006575718310390789006385755887139412077466205105750167795716382833, lc0⟩) (.sx (.leaf
    ⟨1315, 16, 20, 1934, 16, 2121, ⟨[[], [(343597383680, 0)]], 3, 4⟩, ⟨[[(297868734298, 0), (3681225163657, 0),
    (388543506, 0), (5318064, 0), (4217, 0)], [(123381091531, 0), (359801277, 0), (459203, 0), (0, 356), (0, 1)],
    [(0, 6010351), (0, 43447), (0, 258), (0, 1)], [(0, 1011), (0, 10)]], 3, 4⟩, 1099511627776, 0, 773201,
    ⟨[[(64573622912256, 0), (0, 16392708056), (5377873, 0), (23645, 0), (298, 0)], [(5881851403, 0), (2214547, 0),
    (20750, 0), (396, 0), (4, 0)], [(0, 2084452), (5219, 0), (187, 0), (2, 0)], [(1431, 0), (38, 0), (1, 0)]], 3, 4⟩,
    68719476736, 4711484,
    1765439957349580752931181315406861479510575512944755813107475760638399165055648783278836872697, lc0⟩) (.sy (.leaf
    ⟨1345, 16, 20, 2887, 16, 3156, ⟨[[], [(343597383680, 0)]], 3, 4⟩, ⟨[[(0, 479606222966), (2763249589995, 0),
    (151220684, 0), (976107, 0), (347, 0)], [(181047640928, 0), (260359719, 0), (152627, 0), (0, 113)], [(0,
    9265888), (0, 33878), (0, 102)], [(0, 1426), (0, 7)]], 3, 4⟩, 1099511627776, 0, 961128, ⟨[[(64647016546536, 0),
    (0, 10913271343), (3161852, 0), (15081, 0), (108, 0)], [(5778784778, 0), (2104835, 0), (20573, 0), (209, 0), (1,
    0)], [(0, 1874487), (8533, 0), (143, 0), (1, 0)], [(2093, 0), (41, 0)]], 3, 4⟩, 68719476736, 1973383,
    2697702420169249466144328126523967407697601367769564428331571505116888724879087686135066754570, lc0⟩) (.sx (.leaf
    ⟨2742, 16, 41, 3889, 16, 4236, ⟨[[(0, 137438953472)], [(352187318272, 0)]], 3, 4⟩, ⟨[[(275389713356, 0),
    (3702953290082, 0), (221727292, 0), (1326021, 0), (567, 0)], [(122857031295, 0), (177071723, 0), (104444, 0), (0,
    69)], [(0, 3142931), (0, 11603), (0, 35)], [(0, 249), (0, 1)]], 3, 4⟩, 1099511627776, 0, 199593,
    ⟨[[(64489847074392, 0), (0, 8091424970), (1950618, 0), (7560, 0), (39, 0)], [(2843931616, 0), (887276, 0), (6873,
    0), (50, 0)], [(0, 434050), (1914, 0), (22, 0)], [(283, 0), (4, 0)]], 3, 4⟩, 68719476736, 651089,
    2466787959543237926147641148230727363763453978158761545929368899533673906935253492646032419295, lc0⟩) (.sy (.sx
    (.leaf ⟨5530, 16, 82, 7792, 16, 8480, ⟨[[(0, 137438953472)], [(352187318272, 0)]], 3, 4⟩, ⟨[[(0, 247431377693),
    (3718471532782, 0), (111669632, 0), (329629, 0), (67, 0)], [(122253078316, 0), (87623886, 0), (24945, 0), (0,
    10)], [(0, 1590812), (0, 2946), (0, 4)], [(0, 61)]], 3, 4⟩, 1099511627776, 0, 79150, ⟨[[(64528226392368, 0), (0,
    4023976684), (551791, 0), (1167, 0), (3, 0)], [(1413891517, 0), (259009, 0), (1064, 0), (4, 0)], [(0, 101504),
    (298, 0), (2, 0)], [(40, 0)]], 3, 4⟩, 68719476736, 100389,
    2456894732564673025287687387380892321010391625034330107039582583125326530625325399088875236071, lc0⟩) (.out
    ⟨5655, 16, 81, 13962, 16, 8311, ⟨[[(0, 206158430208)], [(347892350976, 0)]], 1, 1⟩, ⟨[[(0, 372760468786), (0,
    3652582708606)], [(0, 119515671642), (0, 85319037)]], 1, 1⟩, 1099511627776, 0, 4719146052, ⟨[], 0, 0⟩, 0, 0, 0,
    lc0⟩ 0 1 122220990727)) (.out ⟨2785, 16, 40, 10351, 16, 6168, ⟨[[], [(343597383680, 0)]], 1, 1⟩, ⟨[[(0,
    298902373220), (0, 2708727067592)], [(0, 178384466078), (0, 127481228)]], 1, 1⟩, 1099511627776, 0, 11833463104,
    ⟨[], 0, 0⟩, 0, 0, 0, lc0⟩ 0 1 167019481281))))))
theorem c76 : checkC job ⟨6, 8, 8, 10, 9, 13⟩ 3 100 lims t76 1072 48 16 75 3 1024 = true := by decide +kernel

def t77 : CTree :=
  .sx (.leaf ⟨1255, 16, 20, 1180, 16, 1289, ⟨[[], [(343597383680, 0)]], 3, 4⟩, ⟨[[(311192260433, 0), (4396544150460,
    0), (1064806474, 0), (26896351, 0), (62125, 0)], [(78395837123, 0), (468266204, 0), (1344137, 0), (656, 0), (12,
    0)], [(0, 3502508), (0, 50487), (0, 595), (0, 6)], [(0, 717), (0, 15)]], 3, 4⟩, 1099511627776, 0, 904881,
    ⟨[[(64086958833542, 0), (0, 27052904830), (13234570, 0), (52071, 0), (1323, 0)], [(6160791283, 0), (3344010, 0),
    (25540, 0), (1114, 0), (19, 0)], [(0, 2294056), (2851, 0), (340, 0), (8, 0)], [(1198, 0), (45, 0), (1, 0)]], 3,
    4⟩, 68719476736, 29421187,
    2230606110691439401561607474939400755763994948754526641875840763832798449081469296855244216841, lc0⟩) (.sy (.leaf
    ⟨1285, 16, 20, 1935, 16, 2112, ⟨[[], [(343597383680, 0)]], 3, 4⟩, ⟨[[(123705004293, 0), (3635487414626, 0),
    (437442518, 0), (5437232, 0), (5710, 0)], [(126194404233, 0), (372337374, 0), (502384, 0), (0, 112)], [(0,
    5940383), (0, 43237), (0, 257), (0, 1)], [(0, 1107), (0, 11)]], 3, 4⟩, 1099511627776, 0, 809020,
    ⟨[[(64243544028323, 0), (0, 16430173400), (5449954, 0), (22975, 0), (294, 0)], [(6030184179, 0), (2290777, 0),
    (20515, 0), (397, 0), (4, 0)], [(0, 2168054), (5250, 0), (192, 0), (2, 0)], [(1501, 0), (40, 0), (1, 0)]], 3, 4⟩,
    68719476736, 4709960,
    1751590884974794178476901488134038643019190528732670080691515783738716217023226725504831468562, lc0⟩) (.sx (.leaf
    ⟨2619, 16, 41, 2372, 16, 2566, ⟨[[(0, 137438953472)], [(352187318272, 0)]], 3, 4⟩, ⟨[[(0, 219810682388),
    (4413012274654, 0), (637224251, 0), (6796043, 0), (8711, 0)], [(78208629358, 0), (231184788, 0), (312125, 0), (0,
    20), (1, 0)], [(0, 1860168), (0, 13840), (0, 83)], [(0, 180), (0, 2)]], 3, 4⟩, 1099511627776, 0, 164989,
    ⟨[[(63915359329446, 0), (0, 13365282598), (4713500, 0), (25659, 0), (229, 0)], [(2979853381, 0), (1302642, 0),
    (14589, 0), (185, 0), (1, 0)], [(0, 489755), (2535, 0), (53, 0)], [(268, 0), (6, 0)]], 3, 4⟩, 68719476736,
    2618631, 2519172840699254129740693855447530793489833364469347752941603271476213466159676291857319195626, lc0⟩)
    (.sy (.leaf ⟨2650, 16, 41, 3891, 16, 4208, ⟨[[(0, 412316860416)], [(352187318272, 0)]], 3, 4⟩, ⟨[[(0,
    239106720065), (3634953779052, 0), (260732323, 0), (1381461, 0), (852, 0)], [(127100083961, 0), (186611017, 0),
    (121444, 0), (0, 20)], [(0, 3099930), (0, 11581), (0, 35)], [(0, 287), (0, 2)]], 3, 4⟩, 1099511627776, 0, 293295,
    ⟨[[(63997998697962, 0), (0, 8119335685), (1965916, 0), (7403, 0), (38, 0)], [(2951331101, 0), (917607, 0), (6918,
    0), (50, 0)], [(0, 461082), (1989, 0), (23, 0)], [(306, 0), (5, 0)]], 3, 4⟩, 68719476736, 681644,
    2220052089069140071671896171382360385836335886729239650892044220826472401153642936891212962500, lc0⟩) (.sx (.leaf
    ⟨5284, 16, 82, 4757, 16, 5122, ⟨[[(0, 137438953472)], [(352187318272, 0)]], 3, 4⟩, ⟨[[(0, 409673273034),
    (4422973634226, 0), (344301495, 0), (1708255, 0), (1147, 0)], [(78129853059, 0), (114806749, 0), (74751, 0), (0,
    9)], [(0, 958353), (0, 3620), (0, 11)], [(0, 45)]], 3, 4⟩, 1099511627776, 0, 110987, ⟨[[(63835727969628, 0), (0,
    6616852329), (1581765, 0), (5498, 0), (22, 0)], [(1488070606, 0), (475653, 0), (3178, 0), (18, 0)], [(0, 107201),
    (570, 0), (5, 0)], [(48, 0), (1, 0)]], 3, 4⟩, 68719476736, 213778,
    3750012546835103791170711601289578831111797468676417294024698412732087847825384229682586359039, lc0⟩) (.out
    ⟨5412, 16, 81, 8377, 16, 5016, ⟨[[(0, 206158430208)], [(347892350976, 0)]], 1, 1⟩, ⟨[[(0, 287371719316), (0,
    4342200492413)], [(0, 76331536601), (0, 111743663)]], 1, 1⟩, 1099511627776, 0, 5476789020, ⟨[], 0, 0⟩, 0, 0, 0,
    lc0⟩ 0 1 175452679563)))))
theorem c77 : checkC job ⟨6, 8, 8, 10, 9, 13⟩ 3 100 lims t77 2096 48 32 81 3 1024 = true := by decide +kernel

def t78 : CTree :=
  .sx (.sy (.sx (.leaf ⟨2680, 16, 41, 2360, 16, 2565, ⟨[[(412316860416, 0)], [(352187318272, 0)]], 3, 4⟩,
    ⟨[[(191108690755, 0), (4447539153900, 0), (573543778, 0), (6585561, 0), (6955, 0)], [(76101021688, 0),
    (222211867, 0), (281820, 0), (0, 182)], [(0, 1875335), (0, 13870), (0, 83)], [(0, 164), (0, 2)]], 3, 4⟩,
    1099511627776, 0, 213837, ⟨[[(64243122900454, 0), (0, 13396346584), (4745522, 0), (26712, 0), (237, 0)],
    [(2907003249, 0), (1285220, 0), (14863, 0), (187, 0), (1, 0)], [(0, 469731), (2520, 0), (52, 0)], [(257, 0), (6,
    0)]], 3, 4⟩, 68719476736, 2681550,
    2668463488597730889145115379697738426727882902672984758520495702274349334851577166975508922757, lc0⟩) (.sy (.leaf
    ⟨2711, 16, 41, 3889, 16, 4226, ⟨[[(137438953472, 0)], [(352187318272, 0)]], 3, 4⟩, ⟨[[(455965009463, 0),
    (3679821978818, 0), (234930407, 0), (1343595, 0), (667, 0)], [(124239121831, 0), (180164159, 0), (109820, 0), (0,
    54)], [(0, 3131683), (0, 11615), (0, 35)], [(0, 261), (0, 1)]], 3, 4⟩, 1099511627776, 0, 236709,
    ⟨[[(64326714671518, 0), (0, 8102317265), (1954261, 0), (7496, 0), (39, 0)], [(2879317284, 0), (896436, 0), (6879,
    0), (50, 0)], [(0, 443030), (1936, 0), (23, 0)], [(290, 0), (4, 0)]], 3, 4⟩, 68719476736, 657361,
    2439653613212473692219276875856785978199331663384780014516848034961362420608058042717457355988, lc0⟩) (.sx (.sy
    (.leaf ⟨5407, 16, 82, 7794, 16, 8442, ⟨[[(0, 137438953472)], [(352187318272, 0)]], 3, 4⟩, ⟨[[(290255451903, 0),
    (3673312552249, 0), (125108740, 0), (338974, 0), (92, 0)], [(125056344823, 0), (90752393, 0), (27674, 0), (0,
    6)], [(0, 1580811), (0, 2955), (0, 4)], [(0, 67)]], 3, 4⟩, 1099511627776, 0, 90680, ⟨[[(64203109128374, 0), (0,
    4033359245), (554250, 0), (1155, 0), (3, 0)], [(1449053389, 0), (264763, 0), (1072, 0), (4, 0)], [(0, 105630),
    (307, 0), (2, 0)], [(43, 0)]], 3, 4⟩, 68719476736, 95823,
    2402865475919933070869315082195338778733631078192020120760998189397859528070138719926510856284, lc0⟩) (.out
    ⟨5503, 16, 81, 13837, 16, 8264, ⟨[[(0, 68719476736)], [(347892350976, 0)]], 1, 1⟩, ⟨[[(0, 162842817876), (0,
    3597366136448)], [(0, 122953532602), (0, 89163300)]], 1, 1⟩, 1099511627776, 0, 4847169356, ⟨[], 0, 0⟩, 0, 0, 0,
    lc0⟩ 0 1 134861643970)) (.out ⟨5533, 16, 81, 8396, 16, 5015, ⟨[[(343597383680, 0)], [(347892350976, 0)]], 1, 1⟩,
    ⟨[[(376849449218, 0), (0, 4375528544760)], [(0, 74269619937), (0, 107334496)]], 1, 1⟩, 1099511627776, 0,
    5177847006, ⟨[], 0, 0⟩, 0, 0, 0, lc0⟩ 0 1 178790629786)))) (.sx (.sy (.sx (.leaf ⟨5345, 16, 82, 4745, 16, 5121,
    ⟨[[(412316860416, 0)], [(352187318272, 0)]], 3, 4⟩, ⟨[[(74195798157, 0), (4439898692337, 0), (327720941, 0),
    (1678866, 0), (1039, 0)], [(77064025196, 0), (112520787, 0), (70783, 0), (0, 20)], [(0, 961848), (0, 3622), (0,
    11)], [(0, 43)]], 3, 4⟩, 1099511627776, 0, 96161, ⟨[[(63999248966424, 0), (0, 6624315321), (1592676, 0), (5598,
    0), (22, 0)], [(1469879522, 0), (474421, 0), (3201, 0), (18, 0)], [(0, 104801), (567, 0), (5, 0)], [(47, 0), (1,
    0)]], 3, 4⟩, 68719476736, 230368,
    3987656720160902673517052605719570670166770138640668580311536036284652838141457703793300868561, lc0⟩) (.out
    ⟨5473, 16, 81, 8386, 16, 5015, ⟨[[(0, 481036337152)], [(347892350976, 0)]], 1, 1⟩, ⟨[[(0, 473130133884), (0,
    4358542379670)], [(0, 75286855583), (0, 109504475)]], 1, 1⟩, 1099511627776, 0, 5329017101, ⟨[], 0, 0⟩, 0, 0, 0,
    lc0⟩ 0 1 175589161299)) (.out ⟨2695, 16, 40, 6849, 16, 4106, ⟨[[], [(343597383680, 0)]], 1, 1⟩, ⟨[[(0,
    146515337313), (0, 3567550791703)], [(0, 124514068476), (0, 181215203)]], 1, 1⟩, 1099511627776, 0, 10283117861,
    ⟨[], 0, 0⟩, 0, 0, 0, lc0⟩ 0 1 302028374501)) (.out ⟨2725, 16, 40, 4164, 16, 2497, ⟨[[], [(343597383680, 0)]], 1,
    1⟩, ⟨[[(421665836981, 0), (0, 4357975978028)], [(0, 75019967355), (0, 216756175)]], 1, 1⟩, 1099511627776, 0,
    11574232952, ⟨[], 0, 0⟩, 0, 0, 0, lc0⟩ 0 1 392622957452))) (.sy (.sx (.sy (.sx (.sy (.leaf ⟨5468, 16, 82, 7793,
    16, 8461, ⟨[[(412316860416, 0)], [(352187318272, 0)]], 3, 4⟩, ⟨[[(314585708286, 0), (3695945540592, 0),
    (118443832, 0), (334199, 0), (80, 0)], [(123648169759, 0), (89172831, 0), (26274, 0), (0, 8)], [(0, 1586664), (0,
    2953), (0, 4)], [(0, 64)]], 3, 4⟩, 1099511627776, 0, 77947, ⟨[[(64365619746830, 0), (0, 4028740688), (552712, 0),
    (1160, 0), (3, 0)], [(1431417085, 0), (261727, 0), (1067, 0), (4, 0)], [(0, 103574), (302, 0), (2, 0)], [(42,
    0)]], 3, 4⟩, 68719476736, 99075,
    2458153338147276206248434563921708028353439070382441611798398128034704995696279619980040334125, lc0⟩) (.out
    ⟨5564, 16, 81, 13887, 16, 8283, ⟨[[(0, 343597383680)], [(347892350976, 0)]], 1, 1⟩, ⟨[[(0, 309508141148), (0,
    3619618166023)], [(0, 121571601621), (0, 87604623)]], 1, 1⟩, 1099511627776, 0, 4799699048, ⟨[], 0, 0⟩, 0, 0, 0,
    lc0⟩ 0 1 131614663014)) (.out ⟨5594, 16, 81, 8406, 16, 5014, ⟨[[(68719476736, 0)], [(347892350976, 0)]], 1, 1⟩,
    ⟨[[(0, 321039819196), (0, 4391428818712)], [(0, 73250148165), (0, 105190788)]], 1, 1⟩, 1099511627776, 0,
    5021561496, ⟨[], 0, 0⟩, 0, 0, 0, lc0⟩ 0 1 170829205905)) (.out ⟨2755, 16, 40, 6900, 16, 4126, ⟨[[],
    [(343597383680, 0)]], 1, 1⟩, ⟨[[(0, 54406303628), (0, 3612540775745)], [(0, 121750907153), (0, 174885627)]], 1,
    1⟩, 1099511627776, 0, 10089055328, ⟨[], 0, 0⟩, 0, 0, 0, lc0⟩ 0 1 301392683305)) (.out ⟨2785, 16, 40, 4175, 16,
    2497, ⟨[[], [(343597383680, 0)]], 1, 1⟩, ⟨[[(365267444788, 0), (0, 4390772829748)], [(0, 72992957836), (0,
    208134920)]], 1, 1⟩, 1099511627776, 0, 10905351193, ⟨[], 0, 0⟩, 0, 0, 0, lc0⟩ 0 1 387571878027)) (.out ⟨1385, 16,
    20, 3406, 16, 2047, ⟨[[], [(343597383680, 0)]], 1, 1⟩, ⟨[[(0, 142909684750), (0, 3597925630421)], [(0,
    122058756163), (0, 348102606)]], 1, 1⟩, 1099511627776, 0, 22210963801, ⟨[], 0, 0⟩, 0, 0, 0, lc0⟩ 0 1
    633908368448))
theorem c78 : checkC job ⟨6, 8, 8, 10, 9, 13⟩ 3 100 lims t78 2192 48 32 81 3 1024 = true := by decide +kernel

end PyX.Kron.T2b
