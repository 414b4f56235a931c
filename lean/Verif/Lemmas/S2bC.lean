import Verif.Lemmas.S2bJob

/-!
# Temperature from pressure and entropy in subregion 2b, part C of the certificate
-/

namespace PyX.Kron.S2b

set_option Elab.async false

def t27 : CTree :=
  .sy (.sx (.sy (.out ⟨455, 16, 20, 485, 16, 163, ⟨[[], [(343597383680, 0)]], 1, 1⟩, ⟨[[(39628229775, 0),
    (1849020775055, 0)], [(223791832723, 0), (2575458323, 0)]], 1, 1⟩, 1099511627776, 0, 477150778806, ⟨[], 0, 0⟩, 0,
    0, 0, ⟨0, 5, 329107355915672, [72341353565]⟩⟩ 0 1 3336) (.out ⟨455, 16, 20, 459, 16, 151, ⟨[[], [(343597383680,
    0)]], 1, 1⟩, ⟨[[(42242508618, 0), (1851685610407, 0)], [(223269305263, 0), (2964774500, 0)]], 1, 1⟩,
    1099511627776, 0, 547734923521, ⟨[], 0, 0⟩, 0, 0, 0, ⟨0, 5, 304878593516972, [67015609744]⟩⟩ 0 1 3841)) (.sy
    (.out ⟨485, 16, 20, 462, 16, 149, ⟨[[], [(343597383680, 0)]], 1, 1⟩, ⟨[[(0, 300443364062), (1948540978082, 0)],
    [(216428503182, 0), (3068106938, 0)]], 1, 1⟩, 1099511627776, 0, 536081177045, ⟨[], 0, 0⟩, 0, 0, 0, ⟨0, 5,
    306988236051127, [62037594902]⟩⟩ 0 1 4320) (.sx (.out ⟨955, 16, 40, 647, 16, 206, ⟨[[], [(343597383680, 0)]], 1,
    1⟩, ⟨[[(0, 315193359874), (2852514515769, 0)], [(160748435294, 0), (2533691200, 0)]], 1, 1⟩, 1099511627776, 0,
    415056216834, ⟨[], 0, 0⟩, 0, 0, 0, ⟨0, 5, 422352124314108, [43558635979]⟩⟩ 0 1 4635) (.out ⟨985, 16, 40, 619, 16,
    193, ⟨[[], [(343597383680, 0)]], 1, 1⟩, ⟨[[(358723221396, 0), (2918904497360, 0)], [(157083365802, 0),
    (2771076025, 0)]], 1, 1⟩, 1099511627776, 0, 464458856621, ⟨[], 0, 0⟩, 0, 0, 0, ⟨0, 5, 399556298653245,
    [39566852252]⟩⟩ 0 1 5157)))) (.sx (.sy (.out ⟨455, 16, 20, 426, 16, 137, ⟨[[], [(343597383680, 0)]], 1, 1⟩,
    ⟨[[(77581319002, 0), (1842799695031, 0)], [(220813585397, 0), (3436563086, 0)]], 1, 1⟩, 1099511627776, 0,
    637889610318, ⟨[], 0, 0⟩, 0, 0, 0, ⟨0, 5, 276611704051822, [60802241953]⟩⟩ 0 1 4389) (.out ⟨455, 16, 20, 392, 16,
    123, ⟨[[], [(343597383680, 0)]], 1, 1⟩, ⟨[[(68650092123, 0), (1848686518118, 0)], [(219511481539, 0),
    (4070138820, 0)]], 1, 1⟩, 1099511627776, 0, 774472901854, ⟨[], 0, 0⟩, 0, 0, 0, ⟨0, 5, 248344814586673,
    [54588874163]⟩⟩ 0 1 4997)) (.sy (.sx (.out ⟨955, 16, 40, 592, 16, 184, ⟨[[], [(343597383680, 0)]], 1, 1⟩,
    ⟨[[(376936416456, 0), (2853614970395, 0)], [(159180922158, 0), (2986652538, 0)]], 1, 1⟩, 1099511627776, 0,
    503468194550, ⟨[], 0, 0⟩, 0, 0, 0, ⟨0, 5, 377246557639785, [38906742816]⟩⟩ 0 1 5236) (.out ⟨985, 16, 40, 557, 16,
    169, ⟨[[], [(343597383680, 0)]], 1, 1⟩, ⟨[[(188203618530, 0), (2909861829266, 0)], [(154507870519, 0),
    (3300930551, 0)]], 1, 1⟩, 1099511627776, 0, 582630923442, ⟨[], 0, 0⟩, 0, 0, 0, ⟨0, 5, 349870541307763,
    [34646621920]⟩⟩ 0 1 5852)) (.sx (.out ⟨955, 16, 40, 533, 16, 161, ⟨[[], [(343597383680, 0)]], 1, 1⟩, ⟨[[(0,
    132784230813), (2868902469360, 0)], [(157784208097, 0), (3658198903, 0)]], 1, 1⟩, 1099511627776, 0, 662437206555,
    ⟨[], 0, 0⟩, 0, 0, 0, ⟨0, 5, 330090737934812, [34043399964]⟩⟩ 0 1 5968) (.sy (.out ⟨985, 16, 40, 705, 16, 209,
    ⟨[[], [(343597383680, 0)]], 1, 1⟩, ⟨[[(0, 379479358470), (2026682527507, 0)], [(212314456475, 0), (2747281079,
    0)]], 1, 1⟩, 1099511627776, 0, 455357118618, ⟨[], 0, 0⟩, 0, 0, 0, ⟨0, 5, 432680136883565, [42847005807]⟩⟩ 0 1
    6460) (.out ⟨985, 16, 40, 651, 16, 190, ⟨[[], [(343597383680, 0)]], 1, 1⟩, ⟨[[(147750573160, 0), (2028878516972,
    0)], [(210047111384, 0), (3244075065, 0)]], 1, 1⟩, 1099511627776, 0, 570835148413, ⟨[], 0, 0⟩, 0, 0, 0, ⟨0, 5,
    393345578985059, [38951823460]⟩⟩ 0 1 6877)))))
theorem c27 : checkC job ⟨6, 8, 7, 8, 9, 13⟩ 3 100 lims t27 752 48 32 75 3 256 = true := by decide +kernel

def t28 : CTree :=
  .sy (.sx (.sx (.sy (.out ⟨1015, 16, 40, 642, 16, 201, ⟨[[], [(343597383680, 0)]], 1, 1⟩, ⟨[[(529580958018, 0),
    (2959545677733, 0)], [(153848453040, 0), (2544568831, 0)]], 1, 1⟩, 1099511627776, 0, 425572065508, ⟨[], 0, 0⟩, 0,
    0, 0, ⟨0, 5, 420015037256409, [39988990240]⟩⟩ 0 1 5053) (.sy (.out ⟨1015, 16, 40, 834, 16, 256, ⟨[[],
    [(343597383680, 0)]], 1, 1⟩, ⟨[[(437981573690, 0), (2059037396730, 0)], [(212137233288, 0), (1997360042, 0)]], 1,
    1⟩, 1099511627776, 0, 303251251532, ⟨[], 0, 0⟩, 0, 0, 0, ⟨0, 5, 534944525062889, [50931251251]⟩⟩ 0 1 5554) (.out
    ⟨1015, 16, 40, 796, 16, 241, ⟨[[], [(343597383680, 0)]], 1, 1⟩, ⟨[[(483457354212, 0), (2071977979369, 0)],
    [(211896735188, 0), (2196964955, 0)]], 1, 1⟩, 1099511627776, 0, 336995698560, ⟨[], 0, 0⟩, 0, 0, 0, ⟨0, 5,
    503600119297485, [47946998248]⟩⟩ 0 1 5908))) (.sy (.out ⟨1045, 16, 40, 617, 16, 189, ⟨[[], [(343597383680, 0)]],
    1, 1⟩, ⟨[[(5024370154, 0), (3029150827395, 0)], [(150493623429, 0), (2746592343, 0)]], 1, 1⟩, 1099511627776, 0,
    472277262955, ⟨[], 0, 0⟩, 0, 0, 0, ⟨0, 5, 398496947372315, [36522116417]⟩⟩ 0 1 5607) (.out ⟨1045, 16, 40, 554,
    16, 165, ⟨[[], [(343597383680, 0)]], 1, 1⟩, ⟨[[(89857457665, 0), (3032071582522, 0)], [(148205538922, 0),
    (3295252149, 0)]], 1, 1⟩, 1099511627776, 0, 606359821157, ⟨[], 0, 0⟩, 0, 0, 0, ⟨0, 5, 347894160404402,
    [31884387348]⟩⟩ 0 1 6337))) (.sx (.sy (.out ⟨1075, 16, 40, 587, 16, 176, ⟨[[], [(343597383680, 0)]], 1, 1⟩,
    ⟨[[(68993914694, 0), (3084238032884, 0)], [(146249410039, 0), (2942104740, 0)]], 1, 1⟩, 1099511627776, 0,
    527660331157, ⟨[], 0, 0⟩, 0, 0, 0, ⟨0, 5, 374306078290858, [33060896524]⟩⟩ 0 1 6162) (.out ⟨1075, 16, 40, 516,
    16, 150, ⟨[[], [(343597383680, 0)]], 1, 1⟩, ⟨[[(0, 205815559526), (3074312804288, 0)], [(142731811612, 0),
    (3678562717, 0)]], 1, 1⟩, 1099511627776, 0, 746632052816, ⟨[], 0, 0⟩, 0, 0, 0, ⟨0, 5, 319010862179708,
    [28176900447]⟩⟩ 0 1 6984)) (.sy (.out ⟨1105, 16, 40, 556, 16, 163, ⟨[[], [(343597383680, 0)]], 1, 1⟩, ⟨[[(0,
    222834230955), (3138542161907, 0)], [(141781292218, 0), (3175340567, 0)]], 1, 1⟩, 1099511627776, 0, 610943791550,
    ⟨[], 0, 0⟩, 0, 0, 0, ⟨0, 5, 349557616855797, [29787616174]⟩⟩ 0 1 6757) (.skip)))) (.sx (.sy (.sy (.out ⟨515, 16,
    20, 448, 16, 132, ⟨[[], [(343597383680, 0)]], 1, 1⟩, ⟨[[(160519797583, 0), (1295648821992, 0)], [(255927232019,
    0), (3218187124, 0)]], 1, 1⟩, 1099511627776, 0, 763895924526, ⟨[], 0, 0⟩, 0, 0, 0, ⟨0, 5, 277082095568684,
    [51757956937]⟩⟩ 0 1 6623) (.sx (.out ⟨1015, 16, 40, 702, 16, 206, ⟨[[], [(343597383680, 0)]], 1, 1⟩, ⟨[[(0,
    375908154772), (2078025850670, 0)], [(208436760758, 0), (2796720339, 0)]], 1, 1⟩, 1099511627776, 0, 460048134713,
    ⟨[], 0, 0⟩, 0, 0, 0, ⟨0, 5, 430463172511543, [40983741241]⟩⟩ 0 1 6731) (.skip))) (.skip)) (.skip))
theorem c28 : checkC job ⟨6, 8, 7, 8, 9, 13⟩ 3 100 lims t28 848 48 32 75 3 256 = true := by decide +kernel

def t29 : CTree :=
  .sx (.sy (.sx (.sy (.sy (.sx (.out ⟨895, 16, 40, 764, 16, 238, ⟨[[], [(343597383680, 0)]], 1, 1⟩, ⟨[[(21997368369,
    0), (1860921796706, 0)], [(224727039424, 0), (2240611716, 0)]], 1, 1⟩, 1099511627776, 0, 379338965170, ⟨[], 0,
    0⟩, 0, 0, 0, ⟨0, 4, 477980941073088, [53698770796]⟩⟩ 0 1 5179) (.out ⟨925, 16, 40, 715, 16, 217, ⟨[[],
    [(343597383680, 0)]], 1, 1⟩, ⟨[[(127778644948, 0), (1917177491182, 0)], [(219675585172, 0), (2586559202, 0)]], 1,
    1⟩, 1099511627776, 0, 438611821186, ⟨[], 0, 0⟩, 0, 0, 0, ⟨0, 5, 440429316535937, [47372731184]⟩⟩ 0 1 5845)) (.out
    ⟨455, 16, 20, 419, 16, 127, ⟨[[], [(343597383680, 0)]], 1, 1⟩, ⟨[[(0, 17566149658), (1137342921405, 0)],
    [(265642366115, 0), (3246895672, 0)]], 1, 1⟩, 1099511627776, 0, 930669136112, ⟨[], 0, 0⟩, 0, 0, 0, ⟨0, 5,
    256421068719573, [56364122103]⟩⟩ 0 1 5879)) (.sx (.out ⟨895, 16, 40, 479, 16, 144, ⟨[[], [(343597383680, 0)]], 1,
    1⟩, ⟨[[(122509601789, 0), (2729573671972, 0)], [(161778762757, 0), (4437035155, 0)]], 1, 1⟩, 1099511627776, 0,
    862148914965, ⟨[], 0, 0⟩, 0, 0, 0, ⟨0, 4, 289198552582036, [32490012582]⟩⟩ 0 1 6092) (.sy (.sx (.out ⟨1858, 16,
    81, 942, 16, 279, ⟨[[(0, 68719476736)], [(347892350976, 0)]], 1, 1⟩, ⟨[[(0, 367430242285), (2842891961068, 0)],
    [(162045315390, 0), (2476271110, 0)]], 1, 1⟩, 1099511627776, 0, 414394673656, ⟨[], 0, 0⟩, 0, 0, 0, ⟨0, 5,
    564798518590517, [30702840569]⟩⟩ 0 1 6484) (.skip)) (.skip)))) (.sy (.sy (.sx (.sx (.out ⟨1919, 16, 81, 999, 16,
    297, ⟨[[(0, 343597383680)], [(347892350976, 0)]], 1, 1⟩, ⟨[[(44876688189, 0), (2907105606847, 0)],
    [(159811154690, 0), (2191198236, 0)]], 1, 1⟩, 1099511627776, 0, 359570776214, ⟨[], 0, 0⟩, 0, 0, 0, ⟨0, 5,
    607411987171507, [31648829869]⟩⟩ 0 1 6385) (.skip)) (.skip)) (.skip)) (.skip))) (.skip)) (.skip)
theorem c29 : checkC job ⟨6, 8, 7, 8, 9, 13⟩ 3 100 lims t29 400 48 16 81 3 256 = true := by decide +kernel

def t30 : CTree :=
  .sy (.sx (.out ⟨655, 16, 40, 436, 16, 151, ⟨[[], [(343597383680, 0)]], 1, 1⟩, ⟨[[(0, 100297192279), (3144328567921,
    0)], [(141294751496, 0), (3365177977, 0)]], 1, 1⟩, 1099511627776, 0, 667585953618, ⟨[], 0, 0⟩, 0, 0, 0, ⟨0, 4,
    272795109342767, [46552828143]⟩⟩ 0 1 2645) (.out ⟨685, 16, 40, 410, 16, 138, ⟨[[], [(343597383680, 0)]], 1, 1⟩,
    ⟨[[(0, 63549006460), (3205000841564, 0)], [(136064701243, 0), (3872887017, 0)]], 1, 1⟩, 1099511627776, 0,
    812108810618, ⟨[], 0, 0⟩, 0, 0, 0, ⟨0, 4, 253302982057122, [40681685463]⟩⟩ 0 1 3301)) (.sx (.sy (.out ⟨655, 16,
    40, 563, 16, 189, ⟨[[], [(343597383680, 0)]], 1, 1⟩, ⟨[[(0, 310451240412), (2228745793228, 0)], [(199376478631,
    0), (2975544196, 0)]], 1, 1⟩, 1099511627776, 0, 514403273585, ⟨[], 0, 0⟩, 0, 0, 0, ⟨0, 4, 341445534210483,
    [58268109397]⟩⟩ 0 1 3363) (.sy (.out ⟨655, 16, 40, 675, 16, 223, ⟨[[], [(343597383680, 0)]], 1, 1⟩,
    ⟨[[(127261545626, 0), (1417680336053, 0)], [(252718634203, 0), (2150458829, 0)]], 1, 1⟩, 1099511627776, 0,
    492900486611, ⟨[], 0, 0⟩, 0, 0, 0, ⟨0, 4, 402869598565808, [68750203152]⟩⟩ 0 1 3740) (.out ⟨655, 16, 40, 643, 16,
    210, ⟨[[], [(343597383680, 0)]], 1, 1⟩, ⟨[[(276435219022, 0), (1413010008822, 0)], [(251106058596, 0),
    (2364163973, 0)]], 1, 1⟩, 1099511627776, 0, 549489010102, ⟨[], 0, 0⟩, 0, 0, 0, ⟨0, 4, 379383926900537,
    [64742343775]⟩⟩ 0 1 4015))) (.sy (.sy (.out ⟨685, 16, 40, 684, 16, 224, ⟨[[], [(343597383680, 0)]], 1, 1⟩,
    ⟨[[(295533273583, 0), (1473816354272, 0)], [(248694089101, 0), (2196180923, 0)]], 1, 1⟩, 1099511627776, 0,
    480688079609, ⟨[], 0, 0⟩, 0, 0, 0, ⟨0, 4, 411158463628952, [66034040171]⟩⟩ 0 1 3950) (.out ⟨685, 16, 40, 652, 16,
    211, ⟨[[], [(343597383680, 0)]], 1, 1⟩, ⟨[[(392860845871, 0), (1473030779351, 0)], [(247696102197, 0),
    (2427001990, 0)]], 1, 1⟩, 1099511627776, 0, 539472340330, ⟨[], 0, 0⟩, 0, 0, 0, ⟨0, 4, 387296588507629,
    [62201707483]⟩⟩ 0 1 4236)) (.sx (.out ⟨1372, 16, 81, 681, 16, 218, ⟨[[(0, 68719476736)], [(347892350976, 0)]], 1,
    1⟩, ⟨[[(45244258288, 0), (3224352168174, 0)], [(136823779410, 0), (3003721221, 0)]], 1, 1⟩, 1099511627776, 0,
    591401240579, ⟨[], 0, 0⟩, 0, 0, 0, ⟨0, 4, 398594418231250, [32488347453]⟩⟩ 0 1 4502) (.out ⟨1402, 16, 81, 636,
    16, 200, ⟨[[(343597383680, 0)], [(347892350976, 0)]], 1, 1⟩, ⟨[[(118501651744, 0), (3254713147243, 0)],
    [(133637365297, 0), (3472792032, 0)]], 1, 1⟩, 1099511627776, 0, 731770425761, ⟨[], 0, 0⟩, 0, 0, 0, ⟨0, 4,
    368513095893550, [29160209849]⟩⟩ 0 1 4943))))
theorem c30 : checkC job ⟨6, 8, 7, 8, 9, 13⟩ 3 100 lims t30 1072 48 64 87 3 256 = true := by decide +kernel

def t31 : CTree :=
  .sx (.sy (.out ⟨715, 16, 40, 575, 16, 190, ⟨[[], [(343597383680, 0)]], 1, 1⟩, ⟨[[(0, 363792251810), (2370109174359,
    0)], [(190604287820, 0), (3008340797, 0)]], 1, 1⟩, 1099511627776, 0, 505682809876, ⟨[], 0, 0⟩, 0, 0, 0, ⟨0, 4,
    354013123042160, [53660903648]⟩⟩ 0 1 3736) (.sx (.out ⟨1433, 16, 81, 756, 16, 246, ⟨[[(0, 343597383680)],
    [(347892350976, 0)]], 1, 1⟩, ⟨[[(0, 215658452921), (3305925791379, 0)], [(134042665447, 0), (2413159460, 0)]], 1,
    1⟩, 1099511627776, 0, 455149214302, ⟨[], 0, 0⟩, 0, 0, 0, ⟨0, 4, 456677584050652, [35106625787]⟩⟩ 0 1 4104) (.out
    ⟨1463, 16, 81, 718, 16, 230, ⟨[[(68719476736, 0)], [(347892350976, 0)]], 1, 1⟩, ⟨[[(0, 193670388539),
    (3325106531404, 0)], [(130884652148, 0), (2640207800, 0)]], 1, 1⟩, 1099511627776, 0, 518620502546, ⟨[], 0, 0⟩, 0,
    0, 0, ⟨0, 4, 430093072250225, [32141816081]⟩⟩ 0 1 4485))) (.sy (.out ⟨745, 16, 40, 533, 16, 171, ⟨[[],
    [(343597383680, 0)]], 1, 1⟩, ⟨[[(0, 304017077538), (2430679953942, 0)], [(184664048862, 0), (3552433033, 0)]], 1,
    1⟩, 1099511627776, 0, 616106135385, ⟨[], 0, 0⟩, 0, 0, 0, ⟨0, 4, 323153485596517, [46350055702]⟩⟩ 0 1 4447) (.sy
    (.sx (.out ⟨1493, 16, 81, 1024, 16, 325, ⟨[[(481036337152, 0)], [(347892350976, 0)]], 1, 1⟩, ⟨[[(47957306496, 0),
    (2455117382740, 0)], [(188008340823, 0), (2021868983, 0)]], 1, 1⟩, 1099511627776, 0, 313749296184, ⟨[], 0, 0⟩, 0,
    0, 0, ⟨0, 4, 612055674234210, [44494032062]⟩⟩ 0 1 4713) (.out ⟨1524, 16, 81, 970, 16, 303, ⟨[[(0, 206158430208)],
    [(347892350976, 0)]], 1, 1⟩, ⟨[[(471192589003, 0), (2487636297982, 0)], [(184778282985, 0), (2277157023, 0)]], 1,
    1⟩, 1099511627776, 0, 361899596848, ⟨[], 0, 0⟩, 0, 0, 0, ⟨0, 4, 574566540604715, [40655242073]⟩⟩ 0 1 5110)) (.out
    ⟨745, 16, 40, 599, 16, 186, ⟨[[], [(343597383680, 0)]], 1, 1⟩, ⟨[[(143659225260, 0), (1585825344125, 0)],
    [(237725619122, 0), (3174126527, 0)]], 1, 1⟩, 1099511627776, 0, 691506748216, ⟨[], 0, 0⟩, 0, 0, 0, ⟨0, 4,
    351500282578668, [50415850061]⟩⟩ 0 1 5260)))
theorem c31 : checkC job ⟨6, 8, 7, 8, 9, 13⟩ 3 100 lims t31 1168 48 64 171 3 512 = true := by decide +kernel

def t32 : CTree :=
  .sx (.sy (.sy (.out ⟨715, 16, 40, 628, 16, 199, ⟨[[], [(343597383680, 0)]], 1, 1⟩, ⟨[[(107299398682, 0),
    (1531716949516, 0)], [(243144241781, 0), (2765697233, 0)]], 1, 1⟩, 1099511627776, 0, 604698507794, ⟨[], 0, 0⟩, 0,
    0, 0, ⟨0, 4, 370782165712578, [56202735926]⟩⟩ 0 1 4752) (.sx (.out ⟨1433, 16, 81, 955, 16, 301, ⟨[[(0,
    343597383680)], [(347892350976, 0)]], 1, 1⟩, ⟨[[(0, 350350757722), (2389959842962, 0)], [(191662488493, 0),
    (2331277856, 0)]], 1, 1⟩, 1099511627776, 0, 376213498069, ⟨[], 0, 0⟩, 0, 0, 0, ⟨0, 4, 558780295931895,
    [42955668137]⟩⟩ 0 1 4886) (.out ⟨1463, 16, 81, 891, 16, 276, ⟨[[(68719476736, 0)], [(347892350976, 0)]], 1, 1⟩,
    ⟨[[(269766688941, 0), (2423259355817, 0)], [(188001590073, 0), (2734268877, 0)]], 1, 1⟩, 1099511627776, 0,
    456806919261, ⟨[], 0, 0⟩, 0, 0, 0, ⟨0, 4, 516111686700270, [38570179297]⟩⟩ 0 1 5322))) (.sx (.sy (.out ⟨1433, 16,
    81, 888, 16, 276, ⟨[[(0, 343597383680)], [(347892350976, 0)]], 1, 1⟩, ⟨[[(0, 152456087995), (2388430323617, 0)],
    [(190245551766, 0), (2741558814, 0)]], 1, 1⟩, 1099511627776, 0, 460120076279, ⟨[], 0, 0⟩, 0, 0, 0, ⟨0, 4,
    512369972349512, [39387921614]⟩⟩ 0 1 5236) (.out ⟨1433, 16, 81, 810, 16, 248, ⟨[[(0, 343597383680)],
    [(347892350976, 0)]], 1, 1⟩, ⟨[[(124200826102, 0), (2383590938770, 0)], [(188134813598, 0), (3339441497, 0)]], 1,
    1⟩, 1099511627776, 0, 586967887645, ⟨[], 0, 0⟩, 0, 0, 0, ⟨0, 4, 460390409937242, [35392045508]⟩⟩ 0 1 5619)) (.sy
    (.sx (.out ⟨2911, 16, 162, 1162, 16, 356, ⟨[[(0, 68719476736)], [(347892350976, 0)]], 1, 1⟩, ⟨[[(0,
    248788720858), (3365127194193, 0)], [(130513129114, 0), (2208330136, 0)]], 1, 1⟩, 1099511627776, 0, 430271023561,
    ⟨[], 0, 0⟩, 0, 0, 0, ⟨0, 4, 664512169078266, [25004753162]⟩⟩ 0 1 5603) (.out ⟨2941, 16, 162, 1104, 16, 335,
    ⟨[[(343597383680, 0)], [(347892350976, 0)]], 1, 1⟩, ⟨[[(241373329597, 0), (3383345775962, 0)], [(128809249450,
    0), (2452729265, 0)]], 1, 1⟩, 1099511627776, 0, 491182921484, ⟨[], 0, 0⟩, 0, 0, 0, ⟨0, 4, 627560569895712,
    [23286761385]⟩⟩ 0 1 5850)) (.out ⟨1463, 16, 81, 724, 16, 217, ⟨[[(68719476736, 0)], [(347892350976, 0)]], 1, 1⟩,
    ⟨[[(12246502782, 0), (2423111726991, 0)], [(183901701077, 0), (4222405311, 0)]], 1, 1⟩, 1099511627776, 0,
    775213086357, ⟨[], 0, 0⟩, 0, 0, 0, ⟨0, 4, 405783463818690, [30325104737]⟩⟩ 0 1 6171)))) (.sy (.sy (.sx (.sy (.out
    ⟨1493, 16, 81, 1191, 16, 369, ⟨[[(481036337152, 0)], [(347892350976, 0)]], 1, 1⟩, ⟨[[(160760329832, 0),
    (1600951302298, 0)], [(242585080173, 0), (1691122239, 0)]], 1, 1⟩, 1099511627776, 0, 329843042872, ⟨[], 0, 0⟩, 0,
    0, 0, ⟨0, 4, 694918596284380, [50517839479]⟩⟩ 0 1 5317) (.out ⟨1493, 16, 81, 1145, 16, 352, ⟨[[(481036337152,
    0)], [(347892350976, 0)]], 1, 1⟩, ⟨[[(0, 216634997712), (1602165829303, 0)], [(241776156195, 0), (1852097389,
    0)]], 1, 1⟩, 1099511627776, 0, 365858586929, ⟨[], 0, 0⟩, 0, 0, 0, ⟨0, 4, 662903376401360, [48190459341]⟩⟩ 0 1
    5515)) (.out ⟨1524, 16, 81, 825, 16, 250, ⟨[[(0, 206158430208)], [(347892350976, 0)]], 1, 1⟩, ⟨[[(273298832171,
    0), (2491951914403, 0)], [(181994536393, 0), (3264998092, 0)]], 1, 1⟩, 1099511627776, 0, 566309652368, ⟨[], 0,
    0⟩, 0, 0, 0, ⟨0, 4, 474064802479138, [33543929103]⟩⟩ 0 1 5885)) (.sx (.sy (.out ⟨1493, 16, 81, 1095, 16, 334,
    ⟨[[(481036337152, 0)], [(347892350976, 0)]], 1, 1⟩, ⟨[[(0, 243914538524), (1603240023079, 0)], [(240791723031,
    0), (2047957667, 0)]], 1, 1⟩, 1099511627776, 0, 410351749490, ⟨[], 0, 0⟩, 0, 0, 0, ⟨0, 4, 629004908289926,
    [45726174488]⟩⟩ 0 1 5716) (.out ⟨1493, 16, 81, 1044, 16, 316, ⟨[[(481036337152, 0)], [(347892350976, 0)]], 1, 1⟩,
    ⟨[[(331954157038, 0), (1609913297546, 0)], [(240462785623, 0), (2294078855, 0)]], 1, 1⟩, 1099511627776, 0,
    466746807990, ⟨[], 0, 0⟩, 0, 0, 0, ⟨0, 4, 595106440178493, [43261889635]⟩⟩ 0 1 5915)) (.sx (.out ⟨3032, 16, 162,
    1046, 16, 313, ⟨[[(481036337152, 0)], [(347892350976, 0)]], 1, 1⟩, ⟨[[(0, 166341276827), (3434398002447, 0)],
    [(125022972370, 0), (2696395839, 0)]], 1, 1⟩, 1099511627776, 0, 561960863119, ⟨[], 0, 0⟩, 0, 0, 0, ⟨0, 4,
    592518684898728, [21103667397]⟩⟩ 0 1 6214) (.skip)))) (.sx (.sy (.sy (.out ⟨1493, 16, 81, 987, 16, 296,
    ⟨[[(481036337152, 0)], [(347892350976, 0)]], 1, 1⟩, ⟨[[(0, 315216894305), (1613017791284, 0)], [(239388495488,
    0), (2585930333, 0)]], 1, 1⟩, 1099511627776, 0, 534461725807, ⟨[], 0, 0⟩, 0, 0, 0, ⟨0, 4, 557441475610234,
    [40523795355]⟩⟩ 0 1 6156) (.skip)) (.skip)) (.skip)))
theorem c32 : checkC job ⟨6, 8, 7, 8, 9, 13⟩ 3 100 lims t32 1168 48 64 177 3 512 = true := by decide +kernel

def t33 : CTree :=
  .sy (.sx (.sy (.sx (.out ⟨775, 16, 40, 482, 16, 150, ⟨[[], [(343597383680, 0)]], 1, 1⟩, ⟨[[(111492565659, 0),
    (2484818014247, 0)], [(177981454207, 0), (4352719543, 0)]], 1, 1⟩, 1099511627776, 0, 819069573379, ⟨[], 0, 0⟩, 0,
    0, 0, ⟨0, 4, 287294593232912, [39084087717]⟩⟩ 0 1 5204) (.sx (.out ⟨1615, 16, 81, 603, 16, 183, ⟨[[(0,
    68719476736)], [(347892350976, 0)]], 1, 1⟩, ⟨[[(24686970465, 0), (3480357030497, 0)], [(118922248143, 0),
    (3677349174, 0)]], 1, 1⟩, 1099511627776, 0, 884599672846, ⟨[], 0, 0⟩, 0, 0, 0, ⟨0, 4, 353883658056254,
    [23168655132]⟩⟩ 0 1 5846) (.sy (.out ⟨1645, 16, 81, 875, 16, 263, ⟨[[(343597383680, 0)], [(347892350976, 0)]], 1,
    1⟩, ⟨[[(0, 293258898129), (2630895703946, 0)], [(174867878314, 0), (2926200640, 0)]], 1, 1⟩, 1099511627776, 0,
    494915322343, ⟨[], 0, 0⟩, 0, 0, 0, ⟨0, 4, 511753721768678, [32682314580]⟩⟩ 0 1 6097) (.skip)))) (.sx (.sy (.sx
    (.out ⟨1554, 16, 81, 912, 16, 280, ⟨[[(206158430208, 0)], [(347892350976, 0)]], 1, 1⟩, ⟨[[(144698371720, 0),
    (2524351645598, 0)], [(181650234603, 0), (2629061485, 0)]], 1, 1⟩, 1099511627776, 0, 432282307039, ⟨[], 0, 0⟩, 0,
    0, 0, ⟨0, 4, 534523746089520, [36834949118]⟩⟩ 0 1 5548) (.out ⟨1585, 16, 81, 846, 16, 255, ⟨[[(0, 481036337152)],
    [(347892350976, 0)]], 1, 1⟩, ⟨[[(0, 364987156568), (2561158969350, 0)], [(178215697429, 0), (3121208908, 0)]], 1,
    1⟩, 1099511627776, 0, 535167793549, ⟨[], 0, 0⟩, 0, 0, 0, ⟨0, 4, 489987772741234, [32903057870]⟩⟩ 0 1 6023)) (.sx
    (.out ⟨1554, 16, 81, 834, 16, 252, ⟨[[(206158430208, 0)], [(347892350976, 0)]], 1, 1⟩, ⟨[[(0, 31840509335),
    (2525392670618, 0)], [(179969963815, 0), (3199362953, 0)]], 1, 1⟩, 1099511627776, 0, 551888903006, ⟨[], 0, 0⟩, 0,
    0, 0, ⟨0, 4, 481071371480568, [33151454207]⟩⟩ 0 1 5960) (.skip))) (.skip))) (.skip)) (.skip)
theorem c33 : checkC job ⟨6, 8, 7, 8, 9, 13⟩ 3 100 lims t33 656 48 32 87 3 256 = true := by decide +kernel

def t34 : CTree :=
  .sx (.sy (.out ⟨655, 16, 40, 465, 16, 149, ⟨[[], [(343597383680, 0)]], 1, 1⟩, ⟨[[(15935218524, 0), (2213833250341,
    0)], [(195489940026, 0), (4441125400, 0)]], 1, 1⟩, 1099511627776, 0, 879960015632, ⟨[], 0, 0⟩, 0, 0, 0, ⟨0, 4,
    269181929086571, [45936234393]⟩⟩ 0 1 4478) (.sx (.sy (.out ⟨1311, 16, 81, 889, 16, 282, ⟨[[(206158430208, 0)],
    [(347892350976, 0)]], 1, 1⟩, ⟨[[(471825336696, 0), (2238845402945, 0)], [(199429838840, 0), (2616844702, 0)]], 1,
    1⟩, 1099511627776, 0, 445943282248, ⟨[], 0, 0⟩, 0, 0, 0, ⟨0, 4, 507359824976655, [43973371277]⟩⟩ 0 1 4726) (.out
    ⟨1311, 16, 81, 822, 16, 257, ⟨[[(206158430208, 0)], [(347892350976, 0)]], 1, 1⟩, ⟨[[(260313707333, 0),
    (2242303131060, 0)], [(198197937903, 0), (3158827209, 0)]], 1, 1⟩, 1099511627776, 0, 561454374442, ⟨[], 0, 0⟩, 0,
    0, 0, ⟨0, 4, 462381117088653, [40075022759]⟩⟩ 0 1 5087)) (.sy (.out ⟨1342, 16, 81, 814, 16, 253, ⟨[[(0,
    481036337152)], [(347892350976, 0)]], 1, 1⟩, ⟨[[(275305649698, 0), (2272513677345, 0)], [(195061564096, 0),
    (3225623545, 0)]], 1, 1⟩, 1099511627776, 0, 572072185354, ⟨[], 0, 0⟩, 0, 0, 0, ⟨0, 4, 458928644715852,
    [38558050310]⟩⟩ 0 1 5236) (.sy (.sx (.out ⟨2668, 16, 162, 1581, 16, 488, ⟨[[(0, 68719476736)], [(347892350976,
    0)]], 1, 1⟩, ⟨[[(0, 515818606123), (2304370621769, 0)], [(198227565785, 0), (1819430502, 0)]], 1, 1⟩,
    1099511627776, 0, 288312922375, ⟨[], 0, 0⟩, 0, 0, 0, ⟨0, 4, 883416220562518, [37398107462]⟩⟩ 0 1 5412) (.out
    ⟨2698, 16, 162, 1490, 16, 455, ⟨[[(343597383680, 0)], [(347892350976, 0)]], 1, 1⟩, ⟨[[(294776258927, 0),
    (2328596787174, 0)], [(196211902765, 0), (2072471597, 0)]], 1, 1⟩, 1099511627776, 0, 332094514524, ⟨[], 0, 0⟩, 0,
    0, 0, ⟨0, 4, 827005533877155, [34476613961]⟩⟩ 0 1 5686)) (.out ⟨1342, 16, 81, 913, 16, 278, ⟨[[(0,
    481036337152)], [(347892350976, 0)]], 1, 1⟩, ⟨[[(101451375886, 0), (1462941692899, 0)], [(247528714447, 0),
    (2759921794, 0)]], 1, 1⟩, 1099511627776, 0, 636210508598, ⟨[], 0, 0⟩, 0, 0, 0, ⟨0, 4, 504277325023742,
    [42368134332]⟩⟩ 0 1 5761))))) (.sy (.sx (.sy (.out ⟨1372, 16, 81, 886, 16, 278, ⟨[[(0, 68719476736)],
    [(347892350976, 0)]], 1, 1⟩, ⟨[[(346304296525, 0), (2317031455487, 0)], [(194918788241, 0), (2710846982, 0)]], 1,
    1⟩, 1099511627776, 0, 458671074123, ⟨[], 0, 0⟩, 0, 0, 0, ⟨0, 4, 508299303982971, [41430094458]⟩⟩ 0 1 4998) (.out
    ⟨1372, 16, 81, 812, 16, 251, ⟨[[(0, 68719476736)], [(347892350976, 0)]], 1, 1⟩, ⟨[[(245712640569, 0),
    (2313774963750, 0)], [(192993879088, 0), (3289743694, 0)]], 1, 1⟩, 1099511627776, 0, 581952768091, ⟨[], 0, 0⟩, 0,
    0, 0, ⟨0, 4, 458932105394697, [37406308305]⟩⟩ 0 1 5375)) (.sy (.out ⟨1402, 16, 81, 810, 16, 249,
    ⟨[[(343597383680, 0)], [(347892350976, 0)]], 1, 1⟩, ⟨[[(0, 269223934680), (2347811736752, 0)], [(190433108230,
    0), (3323723955, 0)]], 1, 1⟩, 1099511627776, 0, 586214954702, ⟨[], 0, 0⟩, 0, 0, 0, ⟨0, 4, 458798804387470,
    [36304461262]⟩⟩ 0 1 5516) (.out ⟨1402, 16, 81, 721, 16, 218, ⟨[[(343597383680, 0)], [(347892350976, 0)]], 1, 1⟩,
    ⟨[[(0, 120803576960), (2341457252268, 0)], [(187648974414, 0), (4176512013, 0)]], 1, 1⟩, 1099511627776, 0,
    771429571108, ⟨[], 0, 0⟩, 0, 0, 0, ⟨0, 4, 401679274523969, [31784628735]⟩⟩ 0 1 5943))) (.sx (.sy (.out ⟨1372, 16,
    81, 727, 16, 221, ⟨[[(0, 68719476736)], [(347892350976, 0)]], 1, 1⟩, ⟨[[(0, 35863889346), (2312828090287, 0)],
    [(190687447145, 0), (4131165001, 0)]], 1, 1⟩, 1099511627776, 0, 764872454210, ⟨[], 0, 0⟩, 0, 0, 0, ⟨0, 4,
    404079662518836, [32935434803]⟩⟩ 0 1 5803) (.sy (.out ⟨1372, 16, 81, 847, 16, 254, ⟨[[(0, 68719476736)],
    [(347892350976, 0)]], 1, 1⟩, ⟨[[(53250599181, 0), (1496756438666, 0)], [(244072547205, 0), (3219006046, 0)]], 1,
    1⟩, 1099511627776, 0, 738513831941, ⟨[], 0, 0⟩, 0, 0, 0, ⟨0, 4, 464417349682283, [37853395656]⟩⟩ 0 1 6157) (.sx
    (.out ⟨2729, 16, 162, 1288, 16, 385, ⟨[[(0, 343597383680)], [(347892350976, 0)]], 1, 1⟩, ⟨[[(311131487442, 0),
    (2353303118431, 0)], [(192477055432, 0), (2691498666, 0)]], 1, 1⟩, 1099511627776, 0, 441138769935, ⟨[], 0, 0⟩, 0,
    0, 0, ⟨0, 4, 702558829447506, [28847779029]⟩⟩ 0 1 6242) (.skip)))) (.sy (.sx (.sy (.out ⟨2789, 16, 162, 1380, 16,
    414, ⟨[[(481036337152, 0)], [(347892350976, 0)]], 1, 1⟩, ⟨[[(0, 189148273344), (2389687314954, 0)],
    [(191448800385, 0), (2415011295, 0)]], 1, 1⟩, 1099511627776, 0, 390130127283, ⟨[], 0, 0⟩, 0, 0, 0, ⟨0, 4,
    761369492639575, [30345141062]⟩⟩ 0 1 6147) (.out ⟨2789, 16, 162, 1276, 16, 379, ⟨[[(481036337152, 0)],
    [(347892350976, 0)]], 1, 1⟩, ⟨[[(0, 383714216661), (2392106230949, 0)], [(190053233714, 0), (2743528340, 0)]], 1,
    1⟩, 1099511627776, 0, 448418935043, ⟨[], 0, 0⟩, 0, 0, 0, ⟨0, 4, 697002506546857, [27779730586]⟩⟩ 0 1 6409))
    (.skip)) (.skip))))
theorem c34 : checkC job ⟨6, 8, 7, 8, 9, 13⟩ 3 100 lims t34 1072 48 64 183 3 512 = true := by decide +kernel

def t35 : CTree :=
  .sx (.sy (.sx (.sy (.out ⟨1433, 16, 81, 721, 16, 217, ⟨[[(0, 343597383680)], [(347892350976, 0)]], 1, 1⟩, ⟨[[(0,
    14888380129), (2381732190483, 0)], [(185679142599, 0), (4213397541, 0)]], 1, 1⟩, 1099511627776, 0, 776062481767,
    ⟨[], 0, 0⟩, 0, 0, 0, ⟨0, 4, 402841608695087, [30968039820]⟩⟩ 0 1 6062) (.sy (.out ⟨1433, 16, 81, 846, 16, 251,
    ⟨[[(0, 343597383680)], [(347892350976, 0)]], 1, 1⟩, ⟨[[(0, 70444734260), (1560527748664, 0)], [(240467236340, 0),
    (3335439070, 0)]], 1, 1⟩, 1099511627776, 0, 737579446679, ⟨[], 0, 0⟩, 0, 0, 0, ⟨0, 4, 465959648767128,
    [35820175091]⟩⟩ 0 1 6439) (.skip))) (.skip)) (.skip)) (.skip)
theorem c35 : checkC job ⟨6, 8, 7, 8, 9, 13⟩ 3 100 lims t35 1168 48 64 183 3 512 = true := by decide +kernel

def t36 : CTree :=
  .sx (.sx (.sy (.sx (.sy (.out ⟨1311, 16, 81, 741, 16, 228, ⟨[[(206158430208, 0)], [(347892350976, 0)]], 1, 1⟩,
    ⟨[[(0, 55584772890), (2238159058651, 0)], [(195737849041, 0), (3927671367, 0)]], 1, 1⟩, 1099511627776, 0,
    729716143390, ⟨[], 0, 0⟩, 0, 0, 0, ⟨0, 4, 410205815938572, [35552938479]⟩⟩ 0 1 5492) (.sy (.sx (.out ⟨2607, 16,
    162, 1427, 16, 436, ⟨[[(206158430208, 0)], [(347892350976, 0)]], 1, 1⟩, ⟨[[(0, 516966203073), (2274354075787,
    0)], [(199103686844, 0), (2238339549, 0)]], 1, 1⟩, 1099511627776, 0, 364880267145, ⟨[], 0, 0⟩, 0, 0, 0, ⟨0, 4,
    782792229509492, [34191620037]⟩⟩ 0 1 5672) (.out ⟨2638, 16, 162, 1319, 16, 398, ⟨[[(0, 481036337152)],
    [(347892350976, 0)]], 1, 1⟩, ⟨[[(0, 343970379284), (2296767954097, 0)], [(196509042671, 0), (2580180746, 0)]], 1,
    1⟩, 1099511627776, 0, 424800401603, ⟨[], 0, 0⟩, 0, 0, 0, ⟨0, 4, 717546213990758, [30852173656]⟩⟩ 0 1 5995)) (.out
    ⟨1311, 16, 81, 801, 16, 241, ⟨[[(206158430208, 0)], [(347892350976, 0)]], 1, 1⟩, ⟨[[(0, 79923206933),
    (1438533364557, 0)], [(247029895046, 0), (3423400405, 0)]], 1, 1⟩, 1099511627776, 0, 824558234159, ⟨[], 0, 0⟩, 0,
    0, 0, ⟨0, 4, 433594744040332, [37580079708]⟩⟩ 0 1 6071))) (.sy (.sy (.out ⟨1342, 16, 81, 855, 16, 258, ⟨[[(0,
    481036337152)], [(347892350976, 0)]], 1, 1⟩, ⟨[[(114786810396, 0), (1469086974320, 0)], [(246733427588, 0),
    (3135160154, 0)]], 1, 1⟩, 1099511627776, 0, 732465650764, ⟨[], 0, 0⟩, 0, 0, 0, ⟨0, 4, 467998380777430,
    [39320067114]⟩⟩ 0 1 5994) (.sx (.out ⟨2668, 16, 162, 1307, 16, 393, ⟨[[(0, 68719476736)], [(347892350976, 0)]],
    1, 1⟩, ⟨[[(0, 435713288539), (2314565459398, 0)], [(195041642510, 0), (2620564471, 0)]], 1, 1⟩, 1099511627776, 0,
    430784588871, ⟨[], 0, 0⟩, 0, 0, 0, ⟨0, 4, 711439702215307, [30117738182]⟩⟩ 0 1 6087) (.out ⟨2698, 16, 162, 1190,
    16, 353, ⟨[[(343597383680, 0)], [(347892350976, 0)]], 1, 1⟩, ⟨[[(0, 416683972942), (2335058574006, 0)],
    [(192124889447, 0), (3013925296, 0)]], 1, 1⟩, 1099511627776, 0, 499895868534, ⟨[], 0, 0⟩, 0, 0, 0, ⟨0, 4,
    641610886722276, [26747790612]⟩⟩ 0 1 6443))) (.sx (.sy (.out ⟨2668, 16, 162, 1202, 16, 358, ⟨[[(0, 68719476736)],
    [(347892350976, 0)]], 1, 1⟩, ⟨[[(326359960758, 0), (2318499012795, 0)], [(193674468485, 0), (2973668928, 0)]], 1,
    1⟩, 1099511627776, 0, 493971421272, ⟨[], 0, 0⟩, 0, 0, 0, ⟨0, 4, 648079932297913, [27435496868]⟩⟩ 0 1 6337)
    (.skip)) (.skip)))) (.sx (.sy (.sx (.sy (.out ⟨2607, 16, 162, 1230, 16, 369, ⟨[[(206158430208, 0)],
    [(347892350976, 0)]], 1, 1⟩, ⟨[[(144717884726, 0), (2281808735571, 0)], [(196593974231, 0), (2873565159, 0)]], 1,
    1⟩, 1099511627776, 0, 478866448244, ⟨[], 0, 0⟩, 0, 0, 0, ⟨0, 4, 662500763048171, [28937403197]⟩⟩ 0 1 6147)
    (.skip)) (.skip)) (.skip)) (.skip))) (.sy (.sx (.sy (.sx (.sy (.out ⟨2729, 16, 162, 1180, 16, 349, ⟨[[(0,
    343597383680)], [(347892350976, 0)]], 1, 1⟩, ⟨[[(46787649883, 0), (2354775250712, 0)], [(190873496627, 0),
    (3052996473, 0)]], 1, 1⟩, 1099511627776, 0, 505630889627, ⟨[], 0, 0⟩, 0, 0, 0, ⟨0, 4, 636865016823843,
    [26150324367]⟩⟩ 0 1 6522) (.skip)) (.skip)) (.skip)) (.skip)) (.skip))) (.skip)
theorem c36 : checkC job ⟨6, 8, 7, 8, 9, 13⟩ 3 100 lims t36 560 48 32 189 3 512 = true := by decide +kernel

def t37 : CTree :=
  .skip
theorem c37 : checkC job ⟨6, 8, 7, 8, 9, 13⟩ 3 100 lims t37 656 48 32 93 3 256 = true := by decide +kernel

def t38 : CTree :=
  .skip
theorem c38 : checkC job ⟨6, 8, 7, 8, 9, 13⟩ 3 100 lims t38 400 48 16 45 3 128 = true := by decide +kernel

def t39 : CTree :=
  .sx (.sy (.sx (.leaf ⟨295, 16, 10, 245, 16, 94, ⟨[[], [(343597383680, 0)]], 3, 4⟩, ⟨[[(0, 149373884056),
    (3172725137372, 0), (28792349951, 0), (810079197, 0), (18614149, 0)], [(136724615571, 0), (2989055279, 0),
    (95077356, 0), (2892243, 0), (85776, 0)], [(0, 15666514), (1784635, 0), (94205, 0), (3703, 0), (176, 0)],
    [(21726, 0), (0, 56), (0, 8), (1, 0)]], 3, 4⟩, 1099511627776, 0, 760536596, ⟨[[(53056943488524, 0), (0,
    102652603528), (523144741, 0), (0, 380456), (0, 4228)], [(40871945996, 0), (0, 107261836), (0, 166498), (1247,
    0), (31, 0)], [(0, 55504309), (133071, 0), (0, 819), (0, 14)], [(107139, 0), (0, 222), (3, 0)]], 3, 4⟩,
    68719476736, 49645760,
    3570287909152840222803310610019819344703429085493218505796948811751586065138135680541513291590, ⟨0, 5,
    205574239174063, [64345215597, 34081152, 24069]⟩⟩) (.out ⟨325, 16, 10, 246, 16, 90, ⟨[[], [(343597383680, 0)]],
    1, 1⟩, ⟨[[(0, 260563228846), (3328014643979, 0)], [(128508992610, 0), (3182536032, 0)]], 1, 1⟩, 1099511627776, 0,
    684889977247, ⟨[], 0, 0⟩, 0, 0, 0, ⟨0, 5, 202458906405584, [55920310118]⟩⟩ 0 1 1435)) (.sx (.out ⟨295, 16, 10,
    227, 16, 81, ⟨[[], [(343597383680, 0)]], 1, 1⟩, ⟨[[(0, 119682696992), (3124559612467, 0)], [(136883101006, 0),
    (3918307137, 0)]], 1, 1⟩, 1099511627776, 0, 835768245848, ⟨[], 0, 0⟩, 0, 0, 0, ⟨0, 5, 177143759288288,
    [55446409185]⟩⟩ 0 1 1978) (.sy (.out ⟨325, 16, 10, 335, 16, 116, ⟨[[], [(343597383680, 0)]], 1, 1⟩,
    ⟨[[(361121513863, 0), (2410127942026, 0)], [(187400398117, 0), (2853026102, 0)]], 1, 1⟩, 1099511627776, 0,
    482186515276, ⟨[], 0, 0⟩, 0, 0, 0, ⟨0, 5, 260947034922752, [72075066374]⟩⟩ 0 1 2649) (.out ⟨325, 16, 10, 313, 16,
    104, ⟨[[], [(343597383680, 0)]], 1, 1⟩, ⟨[[(22290517548, 0), (2388988721125, 0)], [(185495900210, 0),
    (3324298993, 0)]], 1, 1⟩, 1099511627776, 0, 550525062823, ⟨[], 0, 0⟩, 0, 0, 0, ⟨0, 5, 233952514068674,
    [64619025025]⟩⟩ 0 1 3605)))) (.sy (.sy (.out ⟨296, 26, 8, 243, 16, 85, ⟨[[], [(549755813888, 0)]], 1, 1⟩,
    ⟨[[(22692026063, 0), (1730394673080, 0)], [(228173628731, 0), (3038864415, 0)]], 1, 1⟩, 1099511627776, 0,
    661906040296, ⟨[], 0, 0⟩, 0, 0, 0, ⟨0, 5, 198333895716173, [92780694715]⟩⟩ 0 1 2420) (.out ⟨296, 26, 8, 232, 16,
    78, ⟨[[], [(549755813888, 0)]], 1, 1⟩, ⟨[[(44477330928, 0), (1729380416990, 0)], [(228008429421, 0), (3457312325,
    0)]], 1, 1⟩, 1099511627776, 0, 694109090534, ⟨[], 0, 0⟩, 0, 0, 0, ⟨0, 5, 182000516068959, [85139931621]⟩⟩ 0 1
    3328)) (.sy (.out ⟨296, 26, 8, 217, 16, 70, ⟨[[], [(549755813888, 0)]], 1, 1⟩, ⟨[[(167052225731, 0),
    (1722621816088, 0)], [(225664968003, 0), (3965009641, 0)]], 1, 1⟩, 1099511627776, 0, 765586840422, ⟨[], 0, 0⟩, 0,
    0, 0, ⟨0, 5, 163333796472143, [76407630942]⟩⟩ 0 1 4314) (.sx (.sy (.out ⟨355, 16, 10, 420, 16, 134, ⟨[[],
    [(343597383680, 0)]], 1, 1⟩, ⟨[[(0, 464934222748), (1702063712166, 0)], [(234518386414, 0), (2246050407, 0)]], 1,
    1⟩, 1099511627776, 0, 374169107948, ⟨[], 0, 0⟩, 0, 0, 0, ⟨0, 5, 309084028339360, [76223145716]⟩⟩ 0 1 4584) (.out
    ⟨355, 16, 10, 400, 16, 125, ⟨[[], [(343597383680, 0)]], 1, 1⟩, ⟨[[(388747600855, 0), (1698409406493, 0)],
    [(232290641766, 0), (2421724770, 0)]], 1, 1⟩, 1099511627776, 0, 387256162101, ⟨[], 0, 0⟩, 0, 0, 0, ⟨0, 5,
    288324653301641, [71103680705]⟩⟩ 0 1 5100)) (.out ⟨385, 16, 10, 306, 16, 92, ⟨[[], [(343597383680, 0)]], 1, 1⟩,
    ⟨[[(0, 214342003914), (2736952479265, 0)], [(165676616836, 0), (3276130472, 0)]], 1, 1⟩, 1099511627776, 0,
    539130356773, ⟨[], 0, 0⟩, 0, 0, 0, ⟨0, 5, 217029818151570, [48254466739]⟩⟩ 0 1 6090))))
theorem c39 : checkC job ⟨6, 8, 7, 8, 9, 13⟩ 3 100 lims t39 272 48 8 27 3 128 = true := by decide +kernel

def t40 : CTree :=
  .sx (.sy (.out ⟨295, 16, 10, 297, 16, 100, ⟨[[], [(343597383680, 0)]], 1, 1⟩, ⟨[[(21791825798, 0), (2225712057733,
    0)], [(195467540671, 0), (3592092337, 0)]], 1, 1⟩, 1099511627776, 0, 626961438363, ⟨[], 0, 0⟩, 0, 0, 0, ⟨0, 5,
    218695999121344, [68452357018]⟩⟩ 0 1 3293) (.sx (.out ⟨575, 16, 20, 397, 16, 130, ⟨[[], [(343597383680, 0)]], 1,
    1⟩, ⟨[[(0, 334118387642), (3139217460520, 0)], [(141920685065, 0), (3056572596, 0)]], 1, 1⟩, 1099511627776, 0,
    574332254331, ⟨[], 0, 0⟩, 0, 0, 0, ⟨0, 5, 282141467310621, [45654745942]⟩⟩ 0 1 3952) (.out ⟨605, 16, 20, 381, 16,
    121, ⟨[[], [(343597383680, 0)]], 1, 1⟩, ⟨[[(0, 104443910387), (3214339705777, 0)], [(135348699334, 0),
    (3251574272, 0)]], 1, 1⟩, 1099511627776, 0, 640829767577, ⟨[], 0, 0⟩, 0, 0, 0, ⟨0, 5, 266585166313296,
    [40386890641]⟩⟩ 0 1 4697))) (.sy (.out ⟨325, 16, 10, 289, 16, 92, ⟨[[], [(343597383680, 0)]], 1, 1⟩,
    ⟨[[(182672934042, 0), (2399287158343, 0)], [(184712518980, 0), (4020379796, 0)]], 1, 1⟩, 1099511627776, 0,
    666804520337, ⟨[], 0, 0⟩, 0, 0, 0, ⟨0, 5, 206957993214597, [57162983676]⟩⟩ 0 1 4639) (.sx (.out ⟨635, 16, 20,
    367, 16, 113, ⟨[[], [(343597383680, 0)]], 1, 1⟩, ⟨[[(0, 110274205363), (3311335087464, 0)], [(129665107703, 0),
    (3401937257, 0)]], 1, 1⟩, 1099511627776, 0, 704927989977, ⟨[], 0, 0⟩, 0, 0, 0, ⟨0, 5, 252493591904054,
    [35934792460]⟩⟩ 0 1 5475) (.sy (.out ⟨665, 16, 20, 539, 16, 163, ⟨[[], [(343597383680, 0)]], 1, 1⟩, ⟨[[(0,
    268054740878), (2509812932752, 0)], [(183777755094, 0), (2405288385, 0)]], 1, 1⟩, 1099511627776, 0, 339388627634,
    ⟨[], 0, 0⟩, 0, 0, 0, ⟨0, 5, 369078622375176, [49496715597]⟩⟩ 0 1 5938) (.out ⟨665, 16, 20, 502, 16, 148, ⟨[[],
    [(343597383680, 0)]], 1, 1⟩, ⟨[[(261890938416, 0), (2517459927715, 0)], [(181226828325, 0), (2621106871, 0)]], 1,
    1⟩, 1099511627776, 0, 370128163279, ⟨[], 0, 0⟩, 0, 0, 0, ⟨0, 5, 335114331972552, [44941803119]⟩⟩ 0 1 6607))))
theorem c40 : checkC job ⟨6, 8, 7, 8, 9, 13⟩ 3 100 lims t40 496 48 16 63 3 256 = true := by decide +kernel

def t41 : CTree :=
  .sx (.sy (.sy (.out ⟨295, 16, 10, 321, 16, 100, ⟨[[], [(343597383680, 0)]], 1, 1⟩, ⟨[[(0, 54114062981),
    (1433342355270, 0)], [(247335188928, 0), (3416144683, 0)]], 1, 1⟩, 1099511627776, 0, 691677655197, ⟨[], 0, 0⟩, 0,
    0, 0, ⟨0, 5, 218695999121344, [68452357018]⟩⟩ 0 1 5178) (.sx (.out ⟨575, 16, 20, 485, 16, 150, ⟨[[],
    [(343597383680, 0)]], 1, 1⟩, ⟨[[(8915026415, 0), (2230523483938, 0)], [(198032027949, 0), (2961775044, 0)]], 1,
    1⟩, 1099511627776, 0, 451927673287, ⟨[], 0, 0⟩, 0, 0, 0, ⟨0, 5, 325547846896870, [52678553009]⟩⟩ 0 1 5361) (.sy
    (.out ⟨605, 16, 20, 609, 16, 183, ⟨[[], [(343597383680, 0)]], 1, 1⟩, ⟨[[(155907544487, 0), (1504854886840, 0)],
    [(247036075966, 0), (1990291665, 0)]], 1, 1⟩, 1099511627776, 0, 332541538004, ⟨[], 0, 0⟩, 0, 0, 0, ⟨0, 5,
    403182524258952, [61080999894]⟩⟩ 0 1 6104) (.out ⟨605, 16, 20, 584, 16, 173, ⟨[[], [(343597383680, 0)]], 1, 1⟩,
    ⟨[[(0, 166100053272), (1509134275620, 0)], [(245533557312, 0), (2125598327, 0)]], 1, 1⟩, 1099511627776, 0,
    349807545863, ⟨[], 0, 0⟩, 0, 0, 0, ⟨0, 5, 381150692332234, [57743240337]⟩⟩ 0 1 6480)))) (.sx (.sy (.out ⟨575, 16,
    20, 448, 16, 135, ⟨[[], [(343597383680, 0)]], 1, 1⟩, ⟨[[(79115662872, 0), (2242060919026, 0)], [(196321334639,
    0), (3408700637, 0)]], 1, 1⟩, 1099511627776, 0, 523786894612, ⟨[], 0, 0⟩, 0, 0, 0, ⟨0, 5, 292993062207183,
    [47410697709]⟩⟩ 0 1 6030) (.sy (.out ⟨575, 16, 20, 536, 16, 158, ⟨[[], [(343597383680, 0)]], 1, 1⟩, ⟨[[(0,
    358084755958), (1445587795143, 0)], [(249696579196, 0), (2463985369, 0)]], 1, 1⟩, 1099511627776, 0, 447895676791,
    ⟨[], 0, 0⟩, 0, 0, 0, ⟨0, 5, 342910398731370, [55488075837]⟩⟩ 0 1 6611) (.out ⟨575, 16, 20, 506, 16, 147, ⟨[[],
    [(343597383680, 0)]], 1, 1⟩, ⟨[[(0, 9153725623), (1447899078366, 0)], [(247278394250, 0), (2724389363, 0)]], 1,
    1⟩, 1099511627776, 0, 514899282785, ⟨[], 0, 0⟩, 0, 0, 0, ⟨0, 5, 319036889958933, [51624981949]⟩⟩ 0 1 7001))) (.sy
    (.out ⟨605, 16, 20, 421, 16, 122, ⟨[[], [(343597383680, 0)]], 1, 1⟩, ⟨[[(0, 132610128524), (2351076272130, 0)],
    [(188131509712, 0), (3718289718, 0)]], 1, 1⟩, 1099511627776, 0, 599930514192, ⟨[], 0, 0⟩, 0, 0, 0, ⟨0, 5,
    268788349505968, [40720666596]⟩⟩ 0 1 7069) (.sx (.out ⟨1195, 16, 40, 536, 16, 152, ⟨[[], [(343597383680, 0)]], 1,
    1⟩, ⟨[[(0, 117298306403), (3297820508862, 0)], [(131433350703, 0), (3282638026, 0)]], 1, 1⟩, 1099511627776, 0,
    748535113736, ⟨[], 0, 0⟩, 0, 0, 0, ⟨0, 5, 333658620441963, [25685386516]⟩⟩ 0 1 7662) (.skip))))) (.sy (.sx (.sy
    (.out ⟨635, 16, 20, 483, 16, 143, ⟨[[], [(343597383680, 0)]], 1, 1⟩, ⟨[[(0, 248543220412), (2438615078190, 0)],
    [(186714354539, 0), (2928693602, 0)]], 1, 1⟩, 1099511627776, 0, 423562604418, ⟨[], 0, 0⟩, 0, 0, 0, ⟨0, 5,
    319527288869732, [45475002847]⟩⟩ 0 1 6494) (.out ⟨635, 16, 20, 441, 16, 127, ⟨[[], [(343597383680, 0)]], 1, 1⟩,
    ⟨[[(345259337098, 0), (2450965549536, 0)], [(183460740724, 0), (3355466014, 0)]], 1, 1⟩, 1099511627776, 0,
    529598322890, ⟨[], 0, 0⟩, 0, 0, 0, ⟨0, 5, 283775983821370, [40386890641]⟩⟩ 0 1 7239)) (.sy (.out ⟨665, 16, 20,
    464, 16, 133, ⟨[[], [(343597383680, 0)]], 1, 1⟩, ⟨[[(442903149642, 0), (2540155557268, 0)], [(178591610451, 0),
    (2952824371, 0)]], 1, 1⟩, 1099511627776, 0, 458273596793, ⟨[], 0, 0⟩, 0, 0, 0, ⟨0, 5, 301150041569929,
    [40386890641]⟩⟩ 0 1 7367) (.skip))) (.skip))
theorem c41 : checkC job ⟨6, 8, 7, 8, 9, 13⟩ 3 100 lims t41 496 48 16 69 3 256 = true := by decide +kernel

def t42 : CTree :=
  .sy (.sx (.sy (.out ⟨355, 16, 10, 279, 16, 84, ⟨[[], [(343597383680, 0)]], 1, 1⟩, ⟨[[(0, 75369474026),
    (2565866479057, 0)], [(172452527374, 0), (4033493599, 0)]], 1, 1⟩, 1099511627776, 0, 648168892605, ⟨[], 0, 0⟩, 0,
    0, 0, ⟨0, 5, 193754167018703, [47781673434]⟩⟩ 0 1 6053) (.sy (.sx (.out ⟨695, 16, 20, 528, 16, 155, ⟨[[],
    [(343597383680, 0)]], 1, 1⟩, ⟨[[(0, 338436378337), (2609388127496, 0)], [(177221867067, 0), (2328232761, 0)]], 1,
    1⟩, 1099511627776, 0, 323243512730, ⟨[], 0, 0⟩, 0, 0, 0, ⟨0, 5, 355383852063022, [45035741362]⟩⟩ 0 1 6721) (.out
    ⟨725, 16, 20, 522, 16, 149, ⟨[[], [(343597383680, 0)]], 1, 1⟩, ⟨[[(189701031160, 0), (2720778241644, 0)],
    [(170740516462, 0), (2193749937, 0)]], 1, 1⟩, 1099511627776, 0, 334848543598, ⟨[], 0, 0⟩, 0, 0, 0, ⟨0, 5,
    345695931423953, [41501011762]⟩⟩ 0 1 7482)) (.out ⟨355, 16, 10, 320, 16, 90, ⟨[[], [(343597383680, 0)]], 1, 1⟩,
    ⟨[[(4478490071, 0), (1766472715203, 0)], [(224318735071, 0), (3469418744, 0)]], 1, 1⟩, 1099511627776, 0,
    772804171230, ⟨[], 0, 0⟩, 0, 0, 0, ⟨0, 5, 207593750377182, [51194650108]⟩⟩ 0 1 7892))) (.sy (.sy (.out ⟨385, 16,
    10, 390, 16, 113, ⟨[[], [(343597383680, 0)]], 1, 1⟩, ⟨[[(207595923291, 0), (1889867836121, 0)], [(222572524766,
    0), (2228318994, 0)]], 1, 1⟩, 1099511627776, 0, 365954162266, ⟨[], 0, 0⟩, 0, 0, 0, ⟨0, 5, 266569233164428,
    [59269073278]⟩⟩ 0 1 7073) (.sx (.out ⟨755, 16, 20, 553, 16, 158, ⟨[[], [(343597383680, 0)]], 1, 1⟩,
    ⟨[[(416992759358, 0), (2801559373957, 0)], [(166975170892, 0), (1858750021, 0)]], 1, 1⟩, 1099511627776, 0,
    303609604293, ⟨[], 0, 0⟩, 0, 0, 0, ⟨0, 5, 370716571284295, [42259130604]⟩⟩ 0 1 7456) (.out ⟨785, 16, 20, 550, 16,
    153, ⟨[[], [(343597383680, 0)]], 1, 1⟩, ⟨[[(0, 134703814130), (2893620143630, 0)], [(159339135661, 0),
    (2141783120, 0)]], 1, 1⟩, 1099511627776, 0, 521131491449, ⟨[], 0, 0⟩, 0, 0, 0, ⟨0, 5, 362837486848880,
    [39357925274]⟩⟩ 0 1 8200))) (.sy (.sx (.sx (.out ⟨1495, 16, 40, 687, 16, 192, ⟨[[], [(343597383680, 0)]], 1, 1⟩,
    ⟨[[(268915140466, 0), (3715833349194, 0)], [(109551323310, 0), (1558020940, 0)]], 1, 1⟩, 1099511627776, 0,
    464870354462, ⟨[], 0, 0⟩, 0, 0, 0, ⟨0, 5, 449252392132847, [25934056866]⟩⟩ 0 1 8069) (.skip)) (.skip)) (.skip))))
    (.skip)
theorem c42 : checkC job ⟨6, 8, 7, 8, 9, 13⟩ 3 100 lims t42 592 48 16 33 3 128 = true := by decide +kernel

def t43 : CTree :=
  .sy (.sy (.sx (.out ⟨415, 16, 10, 376, 16, 124, ⟨[[], [(343597383680, 0)]], 1, 1⟩, ⟨[[(46872971932, 0),
    (2852026035337, 0)], [(161991428804, 0), (2301756675, 0)]], 1, 1⟩, 1099511627776, 0, 368046097372, ⟨[], 0, 0⟩, 0,
    0, 0, ⟨0, 5, 298530839244280, [60337041439]⟩⟩ 0 1 3782) (.out ⟨445, 16, 10, 381, 16, 121, ⟨[[], [(343597383680,
    0)]], 1, 1⟩, ⟨[[(0, 456489193644), (2995962547995, 0)], [(154176754388, 0), (2167164359, 0)]], 1, 1⟩,
    1099511627776, 0, 383741248054, ⟨[], 0, 0⟩, 0, 0, 0, ⟨0, 5, 296765581185433, [54908019860]⟩⟩ 0 1 4697)) (.out
    ⟨344, 26, 8, 242, 16, 75, ⟨[[], [(549755813888, 0)]], 1, 1⟩, ⟨[[(0, 11826005587), (1989043357519, 0)],
    [(211895809480, 0), (3297266712, 0)]], 1, 1⟩, 1099511627776, 0, 642145127153, ⟨[], 0, 0⟩, 0, 0, 0, ⟨0, 5,
    182283813299890, [70442251117]⟩⟩ 0 1 5309)) (.sy (.sx (.out ⟨415, 16, 10, 331, 16, 100, ⟨[[], [(343597383680,
    0)]], 1, 1⟩, ⟨[[(194151570202, 0), (2868921855021, 0)], [(157917186751, 0), (2657091322, 0)]], 1, 1⟩,
    1099511627776, 0, 477933818006, ⟨[], 0, 0⟩, 0, 0, 0, ⟨0, 5, 240750676809904, [48658904386]⟩⟩ 0 1 5963) (.out
    ⟨445, 16, 10, 341, 16, 99, ⟨[[], [(343597383680, 0)]], 1, 1⟩, ⟨[[(266088241232, 0), (3054229938194, 0)],
    [(149148811173, 0), (1729338255, 0)]], 1, 1⟩, 1099511627776, 0, 607057145995, ⟨[], 0, 0⟩, 0, 0, 0, ⟨0, 5,
    242808202788081, [44924743522]⟩⟩ 0 1 7019)) (.sx (.out ⟨415, 16, 10, 313, 16, 90, ⟨[[], [(343597383680, 0)]], 1,
    1⟩, ⟨[[(127940110266, 0), (2949289713048, 0)], [(156477780881, 0), (2372917010, 0)]], 1, 1⟩, 1099511627776, 0,
    755723450489, ⟨[], 0, 0⟩, 0, 0, 0, ⟨0, 5, 216675609128913, [43793013948]⟩⟩ 0 1 7281) (.sy (.sx (.out ⟨875, 16,
    20, 659, 16, 186, ⟨[[], [(343597383680, 0)]], 1, 1⟩, ⟨[[(180572911629, 0), (3100235955336, 0)], [(150564399204,
    0), (1068658594, 0)]], 1, 1⟩, 1099511627776, 0, 358428314095, ⟨[], 0, 0⟩, 0, 0, 0, ⟨0, 5, 454142145996849,
    [42925495195]⟩⟩ 0 1 7793) (.out ⟨905, 16, 20, 654, 16, 181, ⟨[[], [(343597383680, 0)]], 1, 1⟩, ⟨[[(65730383977,
    0), (3155200039794, 0)], [(143286046394, 0), (2172757269, 0)]], 1, 1⟩, 1099511627776, 0, 788596937042, ⟨[], 0,
    0⟩, 0, 0, 0, ⟨0, 6, 445876883733650, [40386890641]⟩⟩ 0 1 8345)) (.skip))))
theorem c43 : checkC job ⟨6, 8, 7, 8, 9, 13⟩ 3 100 lims t43 688 48 16 27 3 128 = true := by decide +kernel

end PyX.Kron.S2b
