import Verif.Lemmas.KronSat
import Verif.Lemmas.Stable

/-!
# Region 2: signs of the derivatives of the Gibbs free energy

With `x = π = p` and `y = τ - 1/2 = 540/T - 1/2`, for all `(p, T)` with `Vapour p T`. The lists of monomials are checked
against the tables of IAPWS-IF97 by `same`, the limits of the domain against the saturation equation by `chk2`.
-/

namespace PyX.Kron.R2

open Spec.IF97 PyX

set_option maxRecDepth 20000
set_option Elab.async false

def Gp : List Mono :=
  [(61445213076927000000000000000000000, 3, 0), (1316120018533050000000000000000000000, 3, 1),
   (51162871409140000000000000000000000, 4, 2), (1929014908740280000000000000000000000, 4, 3),
   (11461038168830500000000000000000000000, 5, 7), (90049690883672000000000000000000, 8, 8),
   (178287415218792000000000000000000000, 9, 13), (1040696521017400000000000, 10, 4),
   (1710885100705440000000000000000000000000000, 16, 50), (17837169071084200000, 20, 20),
   (6125863375246400000000000000000, 20, 35), (83219284749605400000000000000000000000, 22, 53),
   (1754102654281464, 24, 26), (1329953168418672000000000000, 24, 40)]
def Gn : List Mono :=
  [(1773174247321300000000000000000000000000, 1, 0), (17834862292358000000000000000000000000000, 1, 1),
   (45996013696365000000000000000000000000000, 1, 2), (57581259083432000000000000000000000000000, 1, 3),
   (50325278727930000000000000000000000000000, 1, 6), (66065283340406000000000000000000000000, 2, 1),
   (378979750326300000000000000000000000000, 2, 2), (7878555448671000000000000000000000000000, 2, 4),
   (87594591301146000000000000000000000000000, 2, 7), (53349095828174000000000000000000000000, 2, 36),
   (96833031715710000000000000000000000000, 3, 3), (4510177362644400000000000000000000000000, 3, 6),
   (122004760687947000000000000000000000000000, 3, 35), (3153892382374680000000000000000000, 4, 1),
   (100288598706366000000000000000000, 6, 3), (12702883392813000000000000000000000000000, 6, 16),
   (143374451604624000000000000000000000000000000, 6, 35), (41341695026989000000000000, 7, 0),
   (8835266229370700000000000000000000000, 7, 11), (272627897050173000000000000000000000000000, 7, 25),
   (65849072718398400000000000000000000000000000, 8, 36), (1023474709592900000000000000000, 10, 10),
   (10018179379511000000000000000000000, 10, 14), (1294126538351760000000000000000000, 16, 29),
   (6059205103350780000000000000000000000000000, 18, 57), (84004935396416000000000000000000000000, 20, 48),
   (1240176623398419000, 21, 21), (29367800549766300000000000000, 23, 39),
   (22648729737890400000000000000000000000, 24, 58)]

def Kp : List Mono :=
  [(122890426153854000000000000000000000, 3, 0), (2632240037066100000000000000000000000, 3, 1),
   (102325742818280000000000000000000000, 4, 2), (3858029817480560000000000000000000000, 4, 3),
   (22922076337661000000000000000000000000, 5, 7), (180099381767344000000000000000000, 8, 8),
   (356574830437584000000000000000000000, 9, 13), (2081393042034800000000000, 10, 4),
   (3421770201410880000000000000000000000000000, 16, 50), (35674338142168400000, 20, 20),
   (12251726750492800000000000000000, 20, 35), (166438569499210800000000000000000000000, 22, 53),
   (3508205308562928, 24, 26), (2659906336837344000000000000, 24, 40)]
def Kn : List Mono :=
  [(3546348494642600000000000000000000000000, 1, 0), (35669724584716000000000000000000000000000, 1, 1),
   (91992027392730000000000000000000000000000, 1, 2), (115162518166864000000000000000000000000000, 1, 3),
   (100650557455860000000000000000000000000000, 1, 6), (132130566680812000000000000000000000000, 2, 1),
   (757959500652600000000000000000000000000, 2, 2), (15757110897342000000000000000000000000000, 2, 4),
   (175189182602292000000000000000000000000000, 2, 7), (106698191656348000000000000000000000000, 2, 36),
   (193666063431420000000000000000000000000, 3, 3), (9020354725288800000000000000000000000000, 3, 6),
   (244009521375894000000000000000000000000000, 3, 35), (6307784764749360000000000000000000, 4, 1),
   (200577197412732000000000000000000, 6, 3), (25405766785626000000000000000000000000000, 6, 16),
   (286748903209248000000000000000000000000000000, 6, 35), (82683390053978000000000000, 7, 0),
   (17670532458741400000000000000000000000, 7, 11), (545255794100346000000000000000000000000000, 7, 25),
   (131698145436796800000000000000000000000000000, 8, 36), (2046949419185800000000000000000, 10, 10),
   (20036358759022000000000000000000000, 10, 14), (2588253076703520000000000000000000, 16, 29),
   (12118410206701560000000000000000000000000000, 18, 57), (168009870792832000000000000000000000000, 20, 48),
   (2480353246796838000, 21, 21), (58735601099532600000000000000, 23, 39),
   (45297459475780800000000000000000000000, 24, 58)]

def Bp : List Mono :=
  [(66065283340406000000000000000000000000, 2, 1), (378979750326300000000000000000000000000, 2, 2),
   (7878555448671000000000000000000000000000, 2, 4), (87594591301146000000000000000000000000000, 2, 7),
   (53349095828174000000000000000000000000, 2, 36), (193666063431420000000000000000000000000, 3, 3),
   (9020354725288800000000000000000000000000, 3, 6), (244009521375894000000000000000000000000000, 3, 35),
   (9461677147124040000000000000000000, 4, 1), (501442993531830000000000000000000, 6, 3),
   (63514416964065000000000000000000000000000, 6, 16), (716872258023120000000000000000000000000000000, 6, 35),
   (248050170161934000000000000, 7, 0), (53011597376224200000000000000000000000, 7, 11),
   (1635767382301038000000000000000000000000000, 7, 25), (460943509028788800000000000000000000000000000, 8, 36),
   (9211272386336100000000000000000, 10, 10), (90163614415599000000000000000000000, 10, 14),
   (19411898075276400000000000000000000, 16, 29), (103006486756963260000000000000000000000000000, 18, 57),
   (1596093772531904000000000000000000000000, 20, 48), (24803532467968380000, 21, 21),
   (646091612094858600000000000000, 23, 39), (520920783971479200000000000000000000000, 24, 58)]
def Bn : List Mono :=
  [(122890426153854000000000000000000000, 3, 0), (2632240037066100000000000000000000000, 3, 1),
   (153488614227420000000000000000000000, 4, 2), (5787044726220840000000000000000000000, 4, 3),
   (45844152675322000000000000000000000000, 5, 7), (630347836185704000000000000000000, 8, 8),
   (1426299321750336000000000000000000000, 9, 13), (9366268689156600000000000, 10, 4),
   (25663276510581600000000000000000000000000000, 16, 50), (338906212350599800000, 20, 20),
   (116391404129681600000000000000000, 20, 35), (1747604979741713400000000000000000000000, 22, 53),
   (40344361048473672, 24, 26), (30588922873629456000000000000, 24, 40)]

def Hp : List Mono :=
  [(1316120018533050000000000000000000000, 3, 0), (102325742818280000000000000000000000, 4, 1),
   (5787044726220840000000000000000000000, 4, 2), (80227267181813500000000000000000000000, 5, 6),
   (720397527069376000000000000000000, 8, 7), (2317736397844296000000000000000000000, 9, 12),
   (4162786084069600000000000, 10, 3), (85544255035272000000000000000000000000000000, 16, 49),
   (356743381421684000000, 20, 19), (214405218133624000000000000000000, 20, 34),
   (4410622091729086200000000000000000000000, 22, 52), (45606669011318064, 24, 25),
   (53198126736746880000000000000, 24, 39)]
def Hn : List Mono :=
  [(17834862292358000000000000000000000000000, 1, 0), (91992027392730000000000000000000000000000, 1, 1),
   (172743777250296000000000000000000000000000, 1, 2), (301951672367580000000000000000000000000000, 1, 5),
   (66065283340406000000000000000000000000, 2, 0), (757959500652600000000000000000000000000, 2, 1),
   (31514221794684000000000000000000000000000, 2, 3), (613162139108022000000000000000000000000000, 2, 6),
   (1920567449814264000000000000000000000000, 2, 35), (290499095147130000000000000000000000000, 3, 2),
   (27061064175866400000000000000000000000000, 3, 5), (4270166624078145000000000000000000000000000, 3, 34),
   (3153892382374680000000000000000000, 4, 0), (300865796119098000000000000000000, 6, 2),
   (203246134285008000000000000000000000000000, 6, 15), (5018105806161840000000000000000000000000000000, 6, 34),
   (97187928523077700000000000000000000000, 7, 10), (6815697426254325000000000000000000000000000, 7, 24),
   (2370566617862342400000000000000000000000000000, 8, 35), (10234747095929000000000000000000, 10, 9),
   (140254511313154000000000000000000000, 10, 13), (37529669612201040000000000000000000, 16, 28),
   (345374690890994460000000000000000000000000000, 18, 56), (4032236899027968000000000000000000000000, 20, 47),
   (26043709091366799000, 21, 20), (1145344221440885700000000000000, 23, 38),
   (1313626324797643200000000000000000000000, 24, 57)]

def Rp : List Mono :=
  [(91992027392730000000000000000000000000000, 1, 0), (345487554500592000000000000000000000000000, 1, 1),
   (1509758361837900000000000000000000000000000, 1, 4), (378979750326300000000000000000000000000, 2, 0),
   (47271332692026000000000000000000000000000, 2, 2), (1839486417324066000000000000000000000000000, 2, 5),
   (33609930371749620000000000000000000000000, 2, 34), (193666063431420000000000000000000000000, 3, 1),
   (45101773626444000000000000000000000000000, 3, 4), (48395221739552310000000000000000000000000000, 3, 33),
   (100288598706366000000000000000000, 6, 1), (508115335712520000000000000000000000000000, 6, 14),
   (28435932901583760000000000000000000000000000000, 6, 33), (138839897890111000000000000000000000000, 7, 9),
   (23368105461443400000000000000000000000000000, 7, 23), (10371228953147748000000000000000000000000000000, 8, 34),
   (9211272386336100000000000000000, 10, 8), (182330864707100200000000000000000000, 10, 12),
   (65676921821351820000000000000000000, 16, 27), (1074499038327538320000000000000000000000000000, 18, 55),
   (9475756712715724800000000000000000000000, 20, 46), (24803532467968380000, 21, 19),
   (1892307844119724200000000000000, 23, 37), (3119862521394402600000000000000000000000, 24, 56)]
def Rn : List Mono :=
  [(25581435704570000000000000000000000, 4, 0), (2893522363110420000000000000000000000, 4, 1),
   (96272720618176200000000000000000000000, 5, 5), (630347836185704000000000000000000, 8, 6),
   (3090315197125728000000000000000000000, 9, 11), (1248835825220880000000000, 10, 2),
   (261979281045520500000000000000000000000000000, 16, 48), (338906212350599800000, 20, 18),
   (364488870827160800000000000000000, 20, 33), (10425106762268749200000000000000000000000, 22, 51),
   (47506946886789650, 24, 24), (86446955947213680000000000000, 24, 38)]

def Ip : List Mono :=
  [(40684575383027838000000000000000000000000000, 0, 0), (380404669347304608000000000000000000000000000, 0, 1),
   (1417576835098102176000000000000000000000000000, 0, 2), (2562783187369638784000000000000000000000000000, 0, 3),
   (2738012270254909760000000000000000000000000000, 0, 4), (534945518269994496000000000000000000000000000, 0, 5),
   (280404171421477376000000000000000000000000000, 0, 6), (14778756898834432000000000000000000000000000, 0, 7)]
def In : List Mono :=
  [(32668360325079552000000000000000000000000000, 0, 8)]

def t7 : List Mono :=
  [(2, 0, 0), (28, 0, 1), (168, 0, 2), (560, 0, 3), (1120, 0, 4), (1344, 0, 5), (896, 0, 6), (256, 0, 7)]
def t5 : List Mono :=
  [(2, 0, 0), (20, 0, 1), (80, 0, 2), (160, 0, 3), (160, 0, 4), (64, 0, 5)]

def lims : List Lim :=
  [⟨true, 4847, 10000000, 3, 2⟩, ⟨true, 25207, 50000000, 383, 256⟩, ⟨true, 10487, 20000000, 191, 128⟩,
   ⟨true, 6817, 12500000, 381, 256⟩, ⟨true, 56721, 100000000, 95, 64⟩, ⟨true, 58991, 100000000, 379, 256⟩,
   ⟨true, 61351, 100000000, 189, 128⟩, ⟨true, 12761, 20000000, 377, 256⟩, ⟨true, 13271, 20000000, 47, 32⟩,
   ⟨true, 34503, 50000000, 375, 256⟩, ⟨true, 71761, 100000000, 187, 128⟩, ⟨true, 597, 800000, 373, 256⟩,
   ⟨true, 77601, 100000000, 93, 64⟩, ⟨true, 16139, 20000000, 371, 256⟩, ⟨true, 8391, 10000000, 185, 128⟩,
   ⟨true, 87251, 100000000, 369, 256⟩, ⟨true, 22681, 25000000, 23, 16⟩, ⟨true, 94333, 100000000, 367, 256⟩,
   ⟨true, 24521, 25000000, 183, 128⟩, ⟨true, 101981, 100000000, 365, 256⟩, ⟨true, 6627, 6250000, 91, 64⟩,
   ⟨true, 110241, 100000000, 363, 256⟩, ⟨true, 22923, 20000000, 181, 128⟩, ⟨true, 2979, 2500000, 361, 256⟩,
   ⟨true, 61941, 50000000, 45, 32⟩, ⟨true, 128789, 100000000, 359, 256⟩, ⟨true, 523, 390625, 179, 128⟩,
   ⟨true, 27837, 20000000, 357, 256⟩, ⟨true, 144689, 100000000, 89, 64⟩, ⟨true, 18801, 12500000, 355, 256⟩,
   ⟨true, 156349, 100000000, 177, 128⟩, ⟨true, 162521, 100000000, 353, 256⟩, ⟨true, 84467, 50000000, 11, 8⟩,
   ⟨true, 43899, 25000000, 351, 256⟩, ⟨true, 182517, 100000000, 175, 128⟩, ⟨true, 94853, 50000000, 349, 256⟩,
   ⟨true, 7887, 4000000, 87, 64⟩, ⟨true, 204933, 100000000, 347, 256⟩, ⟨true, 832, 390625, 173, 128⟩,
   ⟨true, 221363, 100000000, 345, 256⟩, ⟨true, 115029, 50000000, 43, 32⟩, ⟨true, 239089, 100000000, 343, 256⟩,
   ⟨true, 248469, 100000000, 171, 128⟩, ⟨true, 64553, 25000000, 341, 256⟩, ⟨true, 268331, 100000000, 85, 64⟩,
   ⟨true, 6971, 2500000, 339, 256⟩, ⟨true, 57951, 20000000, 169, 128⟩, ⟨true, 30109, 10000000, 337, 256⟩,
   ⟨true, 312861, 100000000, 21, 16⟩, ⟨true, 162543, 50000000, 335, 256⟩, ⟨true, 16889, 5000000, 167, 128⟩,
   ⟨true, 350963, 100000000, 333, 256⟩, ⟨true, 91163, 25000000, 83, 64⟩, ⟨true, 189433, 50000000, 331, 256⟩,
   ⟨true, 3149, 800000, 165, 128⟩, ⟨true, 8179, 2000000, 329, 256⟩, ⟨true, 212431, 50000000, 41, 32⟩,
   ⟨true, 441383, 100000000, 327, 256⟩, ⟨true, 57317, 12500000, 163, 128⟩, ⟨true, 59543, 12500000, 325, 256⟩,
   ⟨true, 494833, 100000000, 81, 64⟩, ⟨true, 128507, 25000000, 323, 256⟩, ⟨true, 266977, 50000000, 161, 128⟩,
   ⟨true, 554641, 100000000, 321, 256⟩, ⟨true, 115223, 20000000, 5, 4⟩, ⟨true, 299203, 50000000, 319, 256⟩,
   ⟨true, 310773, 50000000, 159, 128⟩, ⟨true, 129113, 20000000, 317, 256⟩, ⟨true, 20953, 3125000, 79, 64⟩,
   ⟨true, 348187, 50000000, 315, 256⟩, ⟨true, 723233, 100000000, 157, 128⟩, ⟨true, 75111, 10000000, 313, 256⟩,
   ⟨true, 195011, 25000000, 39, 32⟩, ⟨true, 101259, 12500000, 311, 256⟩, ⟨true, 210309, 25000000, 155, 128⟩,
   ⟨true, 873577, 100000000, 309, 256⟩, ⟨true, 45357, 5000000, 77, 64⟩, ⟨true, 94197, 10000000, 307, 256⟩,
   ⟨true, 978113, 100000000, 153, 128⟩, ⟨true, 1015617, 100000000, 305, 256⟩, ⟨true, 527267, 50000000, 19, 16⟩,
   ⟨true, 273729, 25000000, 303, 256⟩, ⟨true, 227363, 20000000, 151, 128⟩, ⟨true, 1180289, 100000000, 301, 256⟩,
   ⟨true, 612697, 50000000, 75, 64⟩, ⟨true, 9939, 781250, 299, 256⟩, ⟨true, 1320743, 100000000, 149, 128⟩,
   ⟨true, 685557, 50000000, 297, 256⟩, ⟨true, 1423369, 100000000, 37, 32⟩, ⟨true, 738789, 50000000, 295, 256⟩,
   ⟨true, 766907, 50000000, 147, 128⟩, ⟨true, 398037, 25000000, 293, 256⟩, ⟨true, 82633, 5000000, 73, 64⟩,
   ⟨true, 1715427, 100000000, 291, 256⟩, ⟨true, 1780533, 100000000, 145, 128⟩, ⟨true, 924031, 50000000, 289, 256⟩,
   ⟨true, 1918103, 100000000, 9, 8⟩, ⟨true, 1990747, 100000000, 287, 256⟩, ⟨true, 258261, 12500000, 143, 128⟩,
   ⟨true, 85769, 4000000, 285, 256⟩, ⟨true, 111263, 5000000, 71, 64⟩, ⟨true, 144331, 6250000, 283, 256⟩,
   ⟨true, 1198221, 50000000, 141, 128⟩, ⟨true, 2486813, 100000000, 281, 256⟩, ⟨true, 1290261, 50000000, 35, 32⟩,
   ⟨true, 2677693, 100000000, 279, 256⟩, ⟨true, 2778449, 100000000, 139, 128⟩, ⟨true, 2882919, 100000000, 277, 256⟩,
   ⟨true, 1495619, 50000000, 69, 64⟩, ⟨true, 387943, 12500000, 275, 256⟩, ⟨true, 160999, 5000000, 137, 128⟩,
   ⟨true, 1670347, 50000000, 273, 256⟩, ⟨true, 3465841, 100000000, 17, 16⟩, ⟨true, 3595579, 100000000, 271, 256⟩,
   ⟨true, 3730073, 100000000, 135, 128⟩, ⟨true, 3869493, 100000000, 269, 256⟩, ⟨true, 802803, 20000000, 67, 64⟩,
   ⟨true, 4163821, 100000000, 267, 256⟩, ⟨true, 4319101, 100000000, 133, 128⟩, ⟨true, 4480049, 100000000, 265, 256⟩,
   ⟨true, 4646867, 100000000, 33, 32⟩, ⟨true, 1204941, 25000000, 263, 256⟩, ⟨true, 2499479, 50000000, 131, 128⟩,
   ⟨true, 518467, 10000000, 261, 256⟩, ⟨true, 2688567, 50000000, 65, 64⟩, ⟨true, 1394147, 25000000, 259, 256⟩,
   ⟨true, 72291, 1250000, 129, 128⟩, ⟨true, 2998733, 50000000, 257, 256⟩, ⟨true, 1554853, 25000000, 1, 1⟩,
   ⟨true, 403087, 6250000, 255, 256⟩, ⟨true, 668769, 10000000, 127, 128⟩, ⟨true, 6934599, 100000000, 253, 256⟩,
   ⟨true, 7190423, 100000000, 63, 64⟩, ⟨true, 298219, 4000000, 251, 256⟩, ⟨true, 7730081, 100000000, 125, 128⟩,
   ⟨true, 500911, 6250000, 249, 256⟩, ⟨true, 8309309, 100000000, 31, 32⟩, ⟨true, 8614637, 100000000, 247, 256⟩,
   ⟨true, 4465467, 50000000, 123, 128⟩, ⟨true, 4629291, 50000000, 245, 256⟩, ⟨true, 479899, 5000000, 61, 64⟩,
   ⟨true, 4974769, 50000000, 243, 256⟩, ⟨true, 5156841, 50000000, 121, 128⟩, ⟨true, 213817, 2000000, 241, 256⟩,
   ⟨true, 11081497, 100000000, 15, 16⟩, ⟨true, 11486093, 100000000, 239, 256⟩, ⟨true, 2976281, 25000000, 119, 128⟩,
   ⟨true, 3084773, 25000000, 237, 256⟩, ⟨true, 6394257, 50000000, 59, 64⟩, ⟨true, 13253931, 100000000, 235, 256⟩,
   ⟨true, 2747179, 20000000, 117, 128⟩, ⟨true, 14234981, 100000000, 233, 256⟩, ⟨true, 7375891, 50000000, 29, 32⟩,
   ⟨true, 15286911, 100000000, 231, 256⟩, ⟨true, 15841001, 100000000, 115, 128⟩,
   ⟨true, 16414709, 100000000, 229, 256⟩, ⟨true, 2126089, 12500000, 57, 64⟩, ⟨true, 1762371, 10000000, 227, 256⟩,
   ⟨true, 9130213, 50000000, 113, 128⟩, ⟨true, 2364951, 12500000, 225, 256⟩, ⟨true, 19602031, 100000000, 7, 8⟩,
   ⟨true, 20308493, 100000000, 223, 256⟩, ⟨true, 1051991, 5000000, 111, 128⟩, ⟨true, 10898433, 50000000, 221, 256⟩,
   ⟨true, 22580513, 100000000, 55, 64⟩, ⟨true, 11695837, 50000000, 219, 256⟩, ⟨true, 2423129, 10000000, 109, 128⟩,
   ⟨true, 5020067, 20000000, 217, 256⟩, ⟨true, 12999909, 50000000, 27, 32⟩, ⟨true, 26930777, 100000000, 215, 256⟩,
   ⟨true, 27894287, 100000000, 107, 128⟩, ⟨true, 1444573, 5000000, 213, 256⟩, ⟨true, 14961721, 50000000, 53, 64⟩,
   ⟨true, 15495711, 50000000, 211, 256⟩, ⟨true, 2006039, 6250000, 105, 128⟩, ⟨true, 16620157, 50000000, 209, 256⟩,
   ⟨true, 17211901, 50000000, 13, 16⟩, ⟨true, 17824221, 50000000, 207, 256⟩, ⟨true, 18457813, 50000000, 103, 128⟩,
   ⟨true, 7645361, 20000000, 205, 256⟩, ⟨true, 7916693, 20000000, 51, 64⟩, ⟨true, 40987149, 100000000, 203, 256⟩,
   ⟨true, 10609863, 25000000, 101, 128⟩, ⟨true, 21971009, 50000000, 201, 256⟩, ⟨true, 11374137, 25000000, 25, 32⟩,
   ⟨true, 11776199, 25000000, 199, 256⟩, ⟨true, 48768579, 100000000, 99, 128⟩, ⟨true, 12622443, 25000000, 197, 256⟩,
   ⟨true, 26135157, 50000000, 49, 64⟩, ⟨true, 13528051, 25000000, 195, 256⟩, ⟨true, 56017511, 100000000, 97, 128⟩,
   ⟨true, 57988371, 100000000, 193, 256⟩, ⟨true, 3751687, 6250000, 3, 4⟩, ⟨true, 7766957, 12500000, 191, 256⟩,
   ⟨true, 12863343, 20000000, 95, 128⟩, ⟨true, 66572607, 100000000, 189, 256⟩, ⟨true, 34452923, 50000000, 47, 64⟩,
   ⟨true, 71319031, 100000000, 187, 256⟩, ⟨true, 36907421, 50000000, 93, 128⟩, ⟨true, 9549507, 12500000, 185, 256⟩,
   ⟨true, 79065539, 100000000, 23, 32⟩, ⟨true, 16365249, 20000000, 183, 256⟩, ⟨true, 84681241, 100000000, 91, 128⟩,
   ⟨true, 21908419, 25000000, 181, 256⟩, ⟨true, 3627473, 4000000, 45, 64⟩, ⟨true, 93844051, 100000000, 179, 256⟩,
   ⟨true, 19421769, 20000000, 89, 128⟩, ⟨true, 100484803, 100000000, 177, 256⟩, ⟨true, 51987823, 50000000, 11, 16⟩,
   ⟨true, 21517043, 20000000, 175, 256⟩, ⟨true, 55658743, 50000000, 87, 128⟩, ⟨true, 23035311, 20000000, 173, 256⟩,
   ⟨true, 119166661, 100000000, 43, 64⟩, ⟨true, 24658437, 20000000, 171, 256⟩, ⟨true, 63778827, 50000000, 85, 128⟩,
   ⟨true, 65983873, 50000000, 169, 256⟩, ⟨true, 136527289, 100000000, 21, 32⟩, ⟨true, 70620637, 50000000, 167, 256⟩,
   ⟨true, 9132179, 6250000, 83, 128⟩, ⟨true, 151153393, 100000000, 165, 256⟩, ⟨true, 78181183, 50000000, 41, 64⟩,
   ⟨true, 161747481, 100000000, 163, 256⟩, ⟨true, 167314623, 100000000, 81, 128⟩,
   ⟨true, 10816867, 6250000, 161, 256⟩, ⟨true, 44754879, 25000000, 5, 8⟩, ⟨true, 92585027, 50000000, 159, 256⟩,
   ⟨true, 191528197, 100000000, 79, 128⟩, ⟨true, 198100889, 100000000, 157, 256⟩,
   ⟨true, 204895309, 100000000, 39, 64⟩, ⟨true, 26489859, 12500000, 155, 256⟩, ⟨true, 219179251, 100000000, 77, 128⟩,
   ⟨true, 226684369, 100000000, 153, 256⟩, ⟨true, 117221217, 50000000, 19, 32⟩,
   ⟨true, 242461917, 100000000, 151, 256⟩, ⟨true, 125375791, 50000000, 75, 128⟩,
   ⟨true, 259320493, 100000000, 149, 256⟩, ⟨true, 67044509, 25000000, 37, 64⟩,
   ⟨true, 277333883, 100000000, 147, 256⟩, ⟨true, 286798089, 100000000, 73, 128⟩,
   ⟨true, 296581013, 100000000, 145, 256⟩, ⟨true, 306693389, 100000000, 9, 16⟩, ⟨true, 79286581, 25000000, 143, 256⟩,
   ⟨true, 327951307, 100000000, 71, 128⟩, ⟨true, 339120221, 100000000, 141, 256⟩, ⟨true, 70133073, 20000000, 35, 64⟩,
   ⟨true, 181299747, 50000000, 139, 256⟩, ⟨true, 37493577, 10000000, 69, 128⟩,
   ⟨true, 387687851, 100000000, 137, 256⟩, ⟨true, 400869859, 100000000, 17, 32⟩,
   ⟨true, 207248219, 50000000, 135, 256⟩, ⟨true, 428582741, 100000000, 67, 128⟩,
   ⟨true, 221572237, 50000000, 133, 256⟩, ⟨true, 114549469, 25000000, 33, 64⟩, ⟨true, 236879917, 50000000, 131, 256⟩,
   ⟨true, 122461953, 25000000, 65, 128⟩, ⟨true, 506479891, 100000000, 129, 256⟩, ⟨true, 130918721, 25000000, 1, 2⟩,
   ⟨true, 270726123, 50000000, 127, 256⟩, ⟨true, 559832179, 100000000, 63, 128⟩,
   ⟨true, 144708909, 25000000, 125, 256⟩, ⟨true, 598484383, 100000000, 31, 64⟩,
   ⟨true, 123760203, 20000000, 123, 256⟩, ⟨true, 39988059, 6250000, 61, 128⟩, ⟨true, 661532581, 100000000, 121, 256⟩,
   ⟨true, 683997209, 100000000, 15, 32⟩, ⟨true, 141445839, 20000000, 119, 256⟩,
   ⟨true, 731255881, 100000000, 59, 128⟩, ⟨true, 189026437, 25000000, 117, 256⟩, ⟨true, 78180849, 10000000, 29, 64⟩,
   ⟨true, 808394977, 100000000, 115, 256⟩, ⟨true, 104487173, 12500000, 57, 128⟩,
   ⟨true, 864349273, 100000000, 113, 256⟩, ⟨true, 223446421, 25000000, 7, 16⟩, ⟨true, 462121581, 50000000, 111, 256⟩,
   ⟨true, 477879961, 50000000, 55, 128⟩, ⟨true, 988375911, 100000000, 109, 256⟩,
   ⟨true, 1022132943, 100000000, 27, 64⟩, ⟨true, 528537411, 50000000, 107, 256⟩, ⟨true, 43729901, 4000000, 53, 128⟩,
   ⟨true, 1130699271, 100000000, 105, 256⟩, ⟨true, 146185097, 12500000, 13, 32⟩,
   ⟨true, 302411369, 25000000, 103, 256⟩, ⟨true, 1251249639, 100000000, 51, 128⟩,
   ⟨true, 1294352729, 100000000, 101, 256⟩, ⟨true, 1339017661, 100000000, 25, 64⟩,
   ⟨true, 692655557, 50000000, 99, 256⟩, ⟨true, 716652023, 50000000, 49, 128⟩,
   ⟨true, 1483071871, 100000000, 97, 256⟩, ⟨true, 767347677, 50000000, 3, 8⟩, ⟨true, 1588260981, 100000000, 95, 256⟩,
   ⟨true, 1643861811, 100000000, 47, 128⟩, ⟨true, 33559, 2000, 93, 256⟩, ⟨true, 42737, 2500, 23, 64⟩,
   ⟨true, 174297, 10000, 91, 256⟩, ⟨true, 88923, 5000, 45, 128⟩, ⟨true, 90801, 5000, 89, 256⟩,
   ⟨true, 185569, 10000, 11, 32⟩, ⟨true, 189753, 10000, 87, 256⟩, ⟨true, 194159, 10000, 43, 128⟩,
   ⟨true, 198793, 10000, 85, 256⟩, ⟨true, 203661, 10000, 21, 64⟩, ⟨true, 208769, 10000, 83, 256⟩,
   ⟨true, 214123, 10000, 41, 128⟩, ⟨true, 219729, 10000, 81, 256⟩, ⟨true, 45119, 2000, 5, 16⟩,
   ⟨true, 115863, 5000, 79, 256⟩, ⟨true, 238131, 10000, 39, 128⟩, ⟨true, 48963, 2000, 77, 256⟩,
   ⟨true, 125893, 5000, 19, 64⟩, ⟨true, 64763, 2500, 75, 256⟩, ⟨true, 13331, 500, 37, 128⟩,
   ⟨true, 274499, 10000, 73, 256⟩, ⟨true, 282697, 10000, 9, 32⟩, ⟨true, 291221, 10000, 71, 256⟩,
   ⟨true, 150041, 5000, 35, 128⟩, ⟨true, 309287, 10000, 69, 256⟩, ⟨true, 159423, 5000, 17, 64⟩,
   ⟨true, 328769, 10000, 67, 256⟩, ⟨true, 67813, 2000, 33, 128⟩, ⟨true, 349743, 10000, 65, 256⟩,
   ⟨true, 22551, 625, 1, 4⟩, ⟨true, 93073, 2500, 63, 256⟩, ⟨true, 48023, 1250, 31, 128⟩,
   ⟨true, 396501, 10000, 61, 256⟩, ⟨true, 409257, 10000, 15, 64⟩, ⟨true, 422463, 10000, 59, 256⟩,
   ⟨true, 436131, 10000, 29, 128⟩, ⟨true, 225137, 5000, 57, 256⟩, ⟨true, 232453, 5000, 7, 32⟩,
   ⟨true, 480039, 10000, 55, 256⟩, ⟨true, 495687, 10000, 27, 128⟩, ⟨true, 255933, 5000, 53, 256⟩,
   ⟨true, 528589, 10000, 13, 64⟩, ⟨true, 34117, 625, 51, 256⟩, ⟨true, 140933, 2500, 25, 128⟩,
   ⟨true, 582183, 10000, 49, 256⟩, ⟨true, 601243, 10000, 3, 16⟩, ⟨true, 620929, 10000, 47, 256⟩,
   ⟨true, 641259, 10000, 23, 128⟩, ⟨true, 165563, 2500, 45, 256⟩, ⟨true, 683927, 10000, 11, 64⟩,
   ⟨true, 353151, 5000, 43, 256⟩, ⟨true, 3647, 50, 21, 128⟩, ⟨true, 753239, 10000, 41, 256⟩,
   ⟨true, 777843, 10000, 5, 32⟩, ⟨true, 401617, 5000, 39, 256⟩, ⟨true, 165887, 2000, 19, 128⟩,
   ⟨true, 856469, 10000, 37, 256⟩, ⟨true, 442181, 5000, 9, 64⟩, ⟨true, 913139, 10000, 35, 256⟩,
   ⟨true, 471413, 5000, 17, 128⟩, ⟨true, 243363, 2500, 33, 256⟩]

def betas : List ℕ :=
  [14837704, 14984310, 15132290, 15281657, 15432423, 15584599, 15738199, 15893234, 16049717, 16207660, 16367075,
   16527977, 16690376, 16854287, 17019722, 17186693, 17355216, 17525301, 17696963, 17870216, 18045073, 18221547,
   18399652, 18579402, 18760811, 18943894, 19128663, 19315134, 19503320, 19693237, 19884899, 20078319, 20273514,
   20470498, 20669286, 20869893, 21072334, 21276625, 21482780, 21690816, 21900747, 22112591, 22326361, 22542075,
   22759749, 22979398, 23201039, 23424688, 23650361, 23878076, 24107848, 24339696, 24573634, 24809682, 25047855,
   25288171, 25530647, 25775301, 26022151, 26271214, 26522507, 26776050, 27031859, 27289954, 27550352, 27813071,
   28078131, 28345550, 28615347, 28887540, 29162149, 29439192, 29718690, 30000660, 30285124, 30572099, 30861607,
   31153667, 31448299, 31745523, 32045359, 32347827, 32652949, 32960744, 33271234, 33584439, 33900380, 34219079,
   34540556, 34864833, 35191932, 35521873, 35854680, 36190373, 36528975, 36870508, 37214995, 37562457, 37912917,
   38266398, 38622924, 38982516, 39345197, 39710993, 40079924, 40452016, 40827292, 41205776, 41587491, 41972462,
   42360713, 42752269, 43147153, 43545392, 43947009, 44352030, 44760480, 45172384, 45587768, 46006657, 46429077,
   46855054, 47284615, 47717785, 48154592, 48595060, 49039218, 49487093, 49938711, 50394100, 50853286, 51316299,
   51783166, 52253914, 52728571, 53207167, 53689730, 54176288, 54666870, 55161506, 55660225, 56163055, 56670028,
   57181172, 57696518, 58216096, 58739937, 59268071, 59800528, 60337342, 60878541, 61424159, 61974227, 62528776,
   63087839, 63651449, 64219638, 64792439, 65369885, 65952009, 66538846, 67130429, 67726792, 68327969, 68933995,
   69544906, 70160735, 70781519, 71407294, 72038095, 72673958, 73314921, 73961019, 74612291, 75268773, 75930503,
   76597520, 77269862, 77947566, 78630674, 79319223, 80013253, 80712805, 81417919, 82128636, 82844996, 83567041,
   84294813, 85028355, 85767708, 86512916, 87264022, 88021070, 88784105, 89553170, 90328311, 91109574, 91897005,
   92690649, 93490554, 94296768, 95109337, 95928312, 96753739, 97585670, 98424153, 99269240, 100120981, 100979428,
   101844633, 102716650, 103595531, 104481330, 105374102, 106273903, 107180789, 108094816, 109016041, 109944523,
   110880321, 111823494, 112774103, 113732209, 114697874, 115671161, 116652134, 117640857, 118637396, 119641818,
   120654190, 121674581, 122703060, 123739699, 124784569, 125837743, 126899295, 127969302, 129047838, 130134984,
   131230818, 132335421, 133448876, 134571267, 135702679, 136843199, 137992918, 139151925, 140320314, 141498179,
   142685618, 143882730, 145089617, 146306381, 147533131, 148769976, 150017026, 151274399, 152542212, 153820587,
   155109649, 156409528, 157720358, 159042274, 160375421, 161719944, 163075998, 164443739, 165823331, 167214947,
   168618764, 170034967, 171463750, 172905317, 174359880, 175827663, 177308901, 178803842, 180312748, 181835898,
   183373586, 184926126, 186493855, 188077131, 189676340, 191291898, 192924254, 194573899, 196241362, 197927229,
   199632142, 201356812, 0, 0, 0, 0, 0, 0, 0, 0, 0, 0, 0, 0, 0, 0, 0, 0, 0, 0, 0, 0, 0, 0, 0, 0, 0, 0, 0, 0, 0, 0, 0,
   0, 0, 0, 0, 0, 0, 0, 0, 0, 0, 0, 0, 0, 0, 0, 0, 0, 0, 0, 0, 0, 0, 0, 0, 0, 0, 0, 0, 0, 0]

theorem lims_ok : chk2 lims betas = true := by decide +kernel

theorem same_G : same 1000000000000000000000000000000000000000000 1 0 1 0 region2 Gp Gn = true := by decide +kernel
theorem same_K : same 2000000000000000000000000000000000000000000 1 0 1 0 region2 Kp Kn = true := by decide +kernel
theorem same_B : same (-1000000000000000000000000000000000000000000) 2 0 2 0 region2 Bp Bn = true := by decide +kernel
theorem same_H : same 1000000000000000000000000000000000000000000 1 1 1 0 region2 Hp Hn = true := by decide +kernel
theorem same_R : same (-1000000000000000000000000000000000000000000) 0 2 0 0 region2 Rp Rn = true := by decide +kernel

def e_v : E := .mono ((1000000000000000000000000000000000000000000, 0, 0) :: Gp) Gn 24 58
def e_kappa : E := .mono ((1000000000000000000000000000000000000000000, 0, 0) :: Bp) Bn 24 58
def e_cp : E := .add (.mono Ip In 24 63) (.mul (.mono t7 [] 0 7) (.mono Rp Rn 24 56))
def e_c : E := .sub (.mono ((2000000000000000000000000000000000000000000, 0, 0) :: Kp) Kn 24 58) (.mul (.mono [(1, 0, 0), (2, 0, 1)] [] 0 1) (.mono Hp Hn 24 57))
def e_det : E := .sub (.mul (.norm e_cp) (.norm e_kappa)) (.mul (.mono t5 [] 0 5) (.mul (.norm e_c) (.norm e_c)))

variable {x y : ℝ} (hx : x ≠ 0) (hy : y ≠ 0)

theorem t7_eq : evalN t7 x y = 256 * (y + 1 / 2) ^ 7 := by
  simp only [t7, evalN_cons, evalN_nil]; push_cast; ring

theorem t5_eq : evalN t5 x y = 64 * (y + 1 / 2) ^ 5 := by
  simp only [t5, evalN_cons, evalN_nil]; push_cast; ring

theorem ideal_eq (h : y + 1 / 2 ≠ 0) :
    evalN Ip x y - evalN In x y = -1000000000000000000000000000000000000000000 * (256 * (y + 1 / 2) ^ 7 * dpoly region2Ideal 0 2 1 (y + 1 / 2)) := by
  generalize ht : y + 1 / 2 = t at *
  obtain rfl : y = t - 1 / 2 := by linarith
  simp only [Ip, In, evalN_cons, evalN_nil, dpoly, Term.d, region2Ideal, ff, List.map_cons, List.map_nil, List.sum_cons, List.sum_nil,
    one_zpow]
  have e : ∀ (m : ℤ) (n : ℕ), m + 7 = n → t ^ 7 * t ^ m = t ^ n := by
    intro m n h'
    rw [← zpow_natCast t n, ← h', add_comm, zpow_add₀ h]; rfl
  have e0 := e (0 - (2 : ℕ)) 5 (by norm_num)
  have e1 := e (1 - (2 : ℕ)) 6 (by norm_num)
  have e2 := e (-5 - (2 : ℕ)) 0 (by norm_num)
  have e3 := e (-4 - (2 : ℕ)) 1 (by norm_num)
  have e4 := e (-3 - (2 : ℕ)) 2 (by norm_num)
  have e5 := e (-2 - (2 : ℕ)) 3 (by norm_num)
  have e6 := e (-1 - (2 : ℕ)) 4 (by norm_num)
  have e7 := e (2 - (2 : ℕ)) 7 (by norm_num)
  have e8 := e (3 - (2 : ℕ)) 8 (by norm_num)
  have dist : ∀ a₀ a₁ a₂ a₃ a₄ a₅ a₆ a₇ a₈ : ℝ, 256 * t ^ 7 * (a₀ + (a₁ + (a₂ + (a₃ + (a₄ + (a₅ + (a₆ + (a₇ + (a₈ + 0)))))))))
      = 256 * (t ^ 7 * a₀ + t ^ 7 * a₁ + t ^ 7 * a₂ + t ^ 7 * a₃ + t ^ 7 * a₄ + t ^ 7 * a₅ + t ^ 7 * a₆ + t ^ 7 * a₇ + t ^ 7 * a₈) := by
    intros; ring
  rw [dist]
  have mv : ∀ a b c d : ℝ, t ^ 7 * (a * b * (c * d)) = a * b * c * (t ^ 7 * d) := by intros; ring
  simp only [mv, e0, e1, e2, e3, e4, e5, e6, e7, e8]
  push_cast
  ring

include hx hy

theorem v_eq : e_v.eval x y = 1000000000000000000000000000000000000000000 * (x * gamma2.gp x (y + 1 / 2)) := by
  have := same_eq same_G hx hy
  simp only [e_v, E.eval, evalN_cons, gamma2]
  have h0 : y + 1 / 2 - 0.5 = y := by norm_num
  rw [h0]
  push_cast at this ⊢
  have h1 : x * (1 / x) = 1 := by field_simp
  linear_combination this - 1000000000000000000000000000000000000000000 * h1

theorem kappa_eq : e_kappa.eval x y = -1000000000000000000000000000000000000000000 * (x ^ 2 * gamma2.gpp x (y + 1 / 2)) := by
  have := same_eq same_B hx hy
  simp only [e_kappa, E.eval, evalN_cons, gamma2]
  have h0 : y + 1 / 2 - 0.5 = y := by norm_num
  rw [h0]
  push_cast at this ⊢
  have h1 : x ^ 2 * (-1 / x ^ 2) = -1 := by field_simp
  linear_combination this + 1000000000000000000000000000000000000000000 * h1

theorem cp_eq (h : y + 1 / 2 ≠ 0) : e_cp.eval x y = -1000000000000000000000000000000000000000000 * (256 * (y + 1 / 2) ^ 7 * gamma2.gtt x (y + 1 / 2)) := by
  have h1 := ideal_eq (x := x) h
  have h2 := same_eq same_R hx hy
  simp only [e_cp, E.eval, gamma2, evalN_nil]
  rw [h1, t7_eq, h2]
  have h0 : y + 1 / 2 - 0.5 = y := by norm_num
  rw [h0]
  push_cast
  ring

theorem c_eq : e_c.eval x y = 2000000000000000000000000000000000000000000 * (x * (gamma2.gp x (y + 1 / 2) - (y + 1 / 2) * gamma2.gpt x (y + 1 / 2))) := by
  have h1 := same_eq same_K hx hy
  have h2 := same_eq same_H hx hy
  have h3 : x * (1 / x) = 1 := by field_simp
  simp only [e_c, E.eval, evalN_cons, evalN_nil, gamma2]
  have h0 : y + 1 / 2 - 0.5 = y := by norm_num
  rw [h0, h2]
  push_cast at h1 ⊢
  linear_combination h1 - 2000000000000000000000000000000000000000000 * h3

theorem det_eq (h : y + 1 / 2 ≠ 0) : e_det.eval x y = 1000000000000000000000000000000000000000000 ^ 2 * (256 * x ^ 2 * (y + 1 / 2) ^ 5 *
    ((y + 1 / 2) ^ 2 * gamma2.gtt x (y + 1 / 2) * gamma2.gpp x (y + 1 / 2) -
      (gamma2.gp x (y + 1 / 2) - (y + 1 / 2) * gamma2.gpt x (y + 1 / 2)) ^ 2)) := by
  have h1 := cp_eq hx hy h
  have h2 := kappa_eq hx hy
  have h3 := c_eq hx hy
  simp only [e_det, E.eval] at *
  rw [h1, h2, h3, t5_eq, evalN_nil]
  ring

omit hx hy

theorem ok_v : e_v.ok = true := by decide +kernel
def tree_v : Tree :=
  .sy (.sx (.sy (.sx (.sy .leaf (.sx .leaf (.sy .leaf (.sx (.sy .leaf (.sx .leaf (.sy .leaf (.sx .leaf (.sx (.sy
    .leaf .skip) .skip))))) (.sy (.sx .leaf (.sy .leaf (.sx .leaf (.sx .leaf .skip)))) (.sx (.sy (.sx .leaf (.sx (.sx
    (.sx .leaf .skip) .skip) .skip)) .skip) .skip)))))) (.sy .leaf (.sx (.sy (.sx (.sy .leaf .leaf) (.sy .leaf (.sx
    (.sy .leaf .leaf) (.sy .leaf .skip)))) (.sx (.sy (.sx (.sy .leaf .skip) (.sx (.sx (.sx (.sx (.sy .leaf .skip)
    .skip) .skip) .skip) .skip)) .skip) .skip)) (.sy (.sx (.sy .leaf (.sx (.sy .leaf .skip) (.sx (.sx (.sx (.sy .leaf
    .skip) .skip) .skip) .skip))) (.sy (.sx .leaf (.sy .leaf .leaf)) .skip)) .skip)))) (.sx (.sy (.sx (.sy (.sx .leaf
    (.sy (.sx .leaf (.sy .leaf (.sx .leaf .leaf))) (.sx (.sy .leaf (.sx .leaf .leaf)) (.sx (.sy .leaf .skip) .skip))))
    (.sx (.sy .leaf (.sx .leaf (.sx .leaf .skip))) (.sx (.sx (.sx (.sy .leaf .skip) .skip) .skip) .skip))) (.sx (.sx
    (.sy (.sy (.sy (.sx .leaf (.sy .leaf .skip)) (.sx (.sx (.sx .leaf .skip) .skip) .skip)) .skip) .skip) .skip)
    .skip)) (.sx (.sx (.sx (.sy .leaf (.sx .leaf .skip)) .skip) .skip) .skip)) .skip)) (.sy (.sx (.sy (.sx (.sy .leaf
    .leaf) (.sy .leaf (.sx (.sy .leaf (.sx .leaf (.sy .leaf .leaf))) (.sy .leaf (.sx (.sy .leaf .leaf) (.sy .leaf (.sx
    .leaf .skip))))))) (.sx (.sy (.sx (.sy (.sx (.sy .leaf .skip) (.sy .leaf .skip)) .skip) (.sy (.sx (.sy .leaf
    .skip) (.sx (.sx (.sy .leaf .skip) .skip) .skip)) .skip)) .skip) .skip)) (.sy (.sx (.sy .leaf (.sx (.sy .leaf (.sx
    (.sy .leaf .skip) (.sy .leaf .skip))) (.sy .leaf (.sx (.sy .leaf .skip) (.sy .leaf .skip))))) (.sy .leaf (.sx (.sy
    .leaf (.sx (.sx (.sy .leaf .skip) .skip) .skip)) (.sy .leaf .skip)))) .skip)) .skip)) (.sx (.sx (.sx (.sx (.sx
    (.sx (.sx (.sy (.sy (.sy .leaf (.sx .leaf .skip)) (.sx (.sx .leaf .skip) .skip)) (.sx (.sx (.sx (.sx (.sx (.sy
    .leaf (.sx .leaf .skip)) .skip) .skip) .skip) .skip) .skip)) .skip) .skip) .skip) .skip) .skip) .skip) .skip)

theorem check_v : check 6 12 e_v lims tree_v 0 100 1 0 3 2 = true := by decide +kernel

theorem ok_kappa : e_kappa.ok = true := by decide +kernel
def tree_kappa : Tree :=
  .sy (.sx (.sy (.sx (.sy .leaf (.sx .leaf (.sy .leaf (.sx (.sy .leaf (.sx (.sy .leaf (.sx .leaf .leaf)) (.sy (.sx
    .leaf .leaf) (.sx .leaf (.sx .leaf .skip))))) (.sy (.sx (.sy .leaf .leaf) (.sy .leaf (.sx .leaf .leaf))) (.sx (.sy
    (.sx .leaf (.sx .leaf .skip)) .skip) .skip)))))) (.sy (.sx .leaf (.sy .leaf .leaf)) (.sx (.sy (.sx (.sy .leaf (.sx
    .leaf (.sy .leaf .leaf))) (.sy .leaf (.sx (.sy .leaf (.sx .leaf .leaf)) (.sy .leaf .skip)))) (.sx (.sy (.sx (.sy
    (.sx .leaf .leaf) .skip) (.sx (.sx (.sx (.sx (.sy .leaf .skip) .skip) .skip) .skip) .skip)) .skip) .skip)) (.sy
    (.sx (.sy (.sx .leaf (.sy .leaf .leaf)) (.sx (.sy .leaf .skip) (.sx (.sx (.sx (.sy .leaf .skip) .skip) .skip)
    .skip))) (.sy (.sx (.sy .leaf .leaf) (.sy .leaf (.sx .leaf .leaf))) .skip)) .skip)))) (.sx (.sy (.sx (.sy (.sx
    .leaf (.sy (.sx .leaf (.sy .leaf (.sx .leaf (.sy .leaf (.sx .leaf .skip))))) (.sx (.sy .leaf (.sx .leaf (.sx .leaf
    .skip))) (.sx (.sy (.sy .leaf .skip) .skip) .skip)))) (.sx (.sy .leaf (.sx .leaf (.sx .leaf .skip))) (.sx (.sx
    (.sx (.sy .leaf .skip) .skip) .skip) .skip))) (.sx (.sx (.sy (.sy (.sy (.sx .leaf (.sy .leaf .skip)) (.sx (.sx
    .leaf .skip) .skip)) .skip) .skip) .skip) .skip)) (.sx (.sx (.sx (.sy (.sy .leaf (.sy .leaf (.sx .leaf (.sx .leaf
    .skip)))) (.sx .leaf .skip)) .skip) .skip) .skip)) .skip)) (.sy (.sx (.sy (.sx (.sy .leaf (.sx .leaf (.sy .leaf
    (.sx .leaf (.sy .leaf .leaf))))) (.sy .leaf (.sx (.sy .leaf (.sx (.sy .leaf .leaf) (.sy .leaf .leaf))) (.sy .leaf
    (.sx (.sy .leaf .leaf) (.sy .leaf (.sx .leaf .skip))))))) (.sx (.sy (.sx (.sy (.sx (.sy .leaf .skip) (.sy .leaf
    .skip)) .skip) (.sy (.sx (.sy .leaf .skip) (.sx (.sx (.sy .leaf .skip) .skip) .skip)) .skip)) .skip) .skip)) (.sy
    (.sx (.sy .leaf (.sx (.sy .leaf (.sx (.sy .leaf .skip) (.sy .leaf .skip))) (.sy .leaf (.sx (.sy .leaf .skip) (.sy
    (.sx .leaf (.sy .leaf .skip)) .skip))))) (.sy .leaf (.sx (.sy (.sx .leaf (.sy .leaf .leaf)) (.sx (.sx (.sy (.sy
    .leaf .skip) .skip) .skip) .skip)) (.sy (.sx (.sy .leaf .leaf) (.sy .leaf .leaf)) .skip)))) .skip)) .skip)) (.sx
    (.sx (.sx (.sx (.sx (.sx (.sx (.sy (.sy .leaf (.sx .leaf .skip)) (.sx (.sx .leaf .skip) .skip)) .skip) .skip)
    .skip) .skip) .skip) .skip) .skip)

theorem check_kappa : check 6 12 e_kappa lims tree_kappa 0 100 1 0 3 2 = true := by decide +kernel

theorem ok_cp : e_cp.ok = true := by decide +kernel
def tree_cp : Tree :=
  .sy (.sx (.sy (.sx (.sy .leaf (.sx (.sy .leaf (.sx .leaf .leaf)) (.sy (.sx .leaf (.sy .leaf .leaf)) (.sx (.sy (.sx
    .leaf .leaf) (.sx (.sy .leaf (.sx .leaf .leaf)) (.sy (.sx .leaf .leaf) (.sx (.sy .leaf (.sx .leaf .leaf)) (.sx
    .leaf .skip))))) (.sy (.sx (.sy .leaf (.sx .leaf .leaf)) (.sy .leaf (.sx .leaf .leaf))) (.sx (.sy (.sx (.sy .leaf
    .leaf) (.sx .leaf .skip)) .skip) .skip)))))) (.sy (.sx (.sy .leaf .leaf) (.sy .leaf (.sx .leaf .leaf))) (.sx (.sy
    (.sx (.sy .leaf (.sx .leaf (.sy .leaf .leaf))) (.sy .leaf (.sx (.sy .leaf (.sx .leaf .leaf)) (.sy .leaf .skip))))
    (.sx (.sy (.sx (.sy (.sx .leaf .leaf) .skip) (.sx (.sx (.sx (.sx (.sy .leaf .skip) .skip) .skip) .skip) .skip))
    .skip) .skip)) (.sy (.sx (.sy (.sx .leaf (.sy .leaf .leaf)) (.sx (.sy (.sx .leaf .leaf) .skip) (.sx (.sx (.sx (.sy
    .leaf .skip) .skip) .skip) .skip))) (.sy (.sx (.sy .leaf .leaf) (.sy .leaf (.sx .leaf .leaf))) .skip)) .skip))))
    (.sx (.sy (.sx (.sy (.sx .leaf (.sy (.sx .leaf (.sy (.sx .leaf .leaf) (.sx .leaf (.sy .leaf (.sx .leaf .skip)))))
    (.sx (.sy (.sx .leaf .leaf) (.sx .leaf (.sx .leaf .skip))) (.sx (.sy (.sy (.sx .leaf .leaf) .skip) .skip)
    .skip)))) (.sx (.sy (.sx .leaf (.sy .leaf (.sx .leaf (.sy .leaf .leaf)))) (.sx .leaf (.sx (.sy .leaf (.sx .leaf
    .skip)) .skip))) (.sx (.sx (.sx (.sy .leaf .skip) .skip) .skip) .skip))) (.sx (.sx (.sy (.sy (.sy (.sx (.sy .leaf
    (.sx .leaf .leaf)) (.sy (.sx .leaf .leaf) .skip)) (.sx (.sx .leaf .skip) .skip)) .skip) .skip) .skip) .skip)) (.sx
    (.sx (.sx (.sy (.sy .leaf (.sy (.sx .leaf (.sx .leaf .skip)) (.sx .leaf (.sx .leaf .skip)))) (.sx .leaf .skip))
    .skip) .skip) .skip)) .skip)) (.sy (.sx (.sy (.sx (.sy .leaf (.sx (.sy .leaf .leaf) (.sy .leaf (.sx (.sy .leaf
    .leaf) (.sy .leaf .leaf))))) (.sy .leaf (.sx (.sy .leaf (.sx (.sy .leaf .leaf) (.sy .leaf .leaf))) (.sy .leaf (.sx
    (.sy .leaf .leaf) (.sy .leaf (.sx (.sy .leaf .skip) .skip))))))) (.sx (.sy (.sx (.sy (.sx (.sy .leaf .skip) (.sy
    .leaf .skip)) .skip) (.sy (.sx (.sy .leaf .skip) (.sx (.sx (.sy .leaf .skip) .skip) .skip)) .skip)) .skip) .skip))
    (.sy (.sx (.sy .leaf (.sx (.sy .leaf (.sx (.sy .leaf .skip) (.sy .leaf .skip))) (.sy (.sx .leaf (.sy .leaf .leaf))
    (.sx (.sy (.sx .leaf (.sy .leaf .skip)) .skip) (.sy (.sx (.sy .leaf .skip) (.sy .leaf .skip)) .skip))))) (.sy (.sx
    (.sy .leaf .leaf) (.sy .leaf .leaf)) (.sx (.sy (.sx (.sy .leaf .leaf) (.sy .leaf .leaf)) (.sx (.sx (.sy (.sy .leaf
    .skip) .skip) .skip) .skip)) (.sy (.sx (.sy .leaf .leaf) (.sy .leaf .leaf)) .skip)))) .skip)) .skip)) (.sx (.sx
    (.sx (.sx (.sx (.sx (.sx (.sy (.sy .leaf (.sx .leaf .skip)) (.sx (.sx .leaf .skip) .skip)) .skip) .skip) .skip)
    .skip) .skip) .skip) .skip)

theorem check_cp : check 6 12 e_cp lims tree_cp 0 100 1 0 3 2 = true := by decide +kernel

theorem ok_det : e_det.ok = true := by decide +kernel

/-- what a successful check means -/
theorem of_check {p T : ℝ} (hv : Vapour p T) {mx my : ℕ} (hmx : 1 ≤ mx) (hmy : 1 ≤ my) {e : E} {tree : Tree} (ho : e.ok = true)
    (hc : check mx my e lims tree 0 100 1 0 3 2 = true) : 0 < e.eval p (540 / T - 1 / 2) := by
  have hT : 0 < T := by linarith [hv.T0]
  have h1 : 540 / 1073.15 ≤ 540 / T := div_le_div_of_nonneg_left (by norm_num) hT hv.T1
  have h2 : 540 / T ≤ 540 / 273.15 := div_le_div_of_nonneg_left (by norm_num) (by norm_num) hv.T0
  refine check_sound hmx hmy ho tree (by norm_num) (by norm_num) hc (chk2_sound lims_ok hv) ?_ ?_ ?_ ?_
  · have := hv.p0; norm_num; linarith
  · have := hv.p1; norm_num; linarith
  · norm_num at h1 ⊢; linarith
  · norm_num at h2 ⊢; linarith

theorem y_pos {p T : ℝ} (hv : Vapour p T) : 0 < 540 / T - 1 / 2 := by
  have hT : 0 < T := by linarith [hv.T0]
  have h1 : 540 / 1073.15 ≤ 540 / T := div_le_div_of_nonneg_left (by norm_num) hT hv.T1
  norm_num at h1 ⊢; linarith

/-- volume, heat capacity and compressibility are positive -/
theorem signs {p T : ℝ} (hv : Vapour p T) :
    0 < gamma2.gp p (540 / T) ∧ gamma2.gtt p (540 / T) < 0 ∧ gamma2.gpp p (540 / T) < 0 := by
  have hy := y_pos hv
  have h0 := hv.p0
  have e : 540 / T - 1 / 2 + 1 / 2 = 540 / T := by ring
  have hτ : 0 < 540 / T := by linarith
  have a1 := of_check hv (by norm_num) (by norm_num) ok_v check_v
  have a2 := of_check hv (by norm_num) (by norm_num) ok_kappa check_kappa
  have a3 := of_check hv (by norm_num) (by norm_num) ok_cp check_cp
  rw [v_eq h0.ne' hy.ne', e] at a1
  rw [kappa_eq h0.ne' hy.ne', e] at a2
  rw [cp_eq h0.ne' hy.ne' (by rw [e]; exact hτ.ne'), e] at a3
  refine ⟨?_, ?_, ?_⟩
  · exact pos_of_mul_pos_right (pos_of_mul_pos_right a1 (by norm_num)) h0.le
  · have := pos_of_mul_pos_right (show 0 < 1000000000000000000000000000000000000000000 * (256 * (540 / T) ^ 7 * -gamma2.gtt p (540 / T)) by linarith) (by norm_num)
    linarith [pos_of_mul_pos_right this (by positivity)]
  · have := pos_of_mul_pos_right (show 0 < 1000000000000000000000000000000000000000000 * (p ^ 2 * -gamma2.gpp p (540 / T)) by linarith) (by norm_num)
    linarith [pos_of_mul_pos_right this (by positivity)]

end PyX.Kron.R2
