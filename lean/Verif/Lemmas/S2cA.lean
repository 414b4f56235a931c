import Verif.Lemmas.S2cJob

/-!
# Temperature from pressure and entropy in subregion 2c, part A of the certificate
-/

namespace PyX.Kron.S2c

set_option Elab.async false

def t0 : CTree :=
  .sy (.sy (.sx (.sx (.out ⟨339, 16, 81, 1558, 16, 585, ⟨[[(206158430208, 0)], [(347892350976, 0)]], 1, 1⟩,
    ⟨[[(50782010150, 0), (0, 3993530438040)], [(0, 97782409211), (0, 78744886)]], 1, 1⟩, 1099511627776, 0,
    421994217082, ⟨[], 0, 0⟩, 0, 0, 0, ⟨0, 2, 145340173182030, [94670868524]⟩⟩ 0 1 19403) (.out ⟨370, 16, 81, 1584,
    16, 598, ⟨[[(0, 481036337152)], [(347892350976, 0)]], 1, 1⟩, ⟨[[(328900852658, 0), (0, 4090014961108)], [(0,
    92006214701), (0, 80742914)]], 1, 1⟩, 1099511627776, 0, 395369917268, ⟨[], 0, 0⟩, 0, 0, 0, ⟨0, 2,
    157467614299274, [88820583498]⟩⟩ 0 1 18981)) (.sx (.out ⟨400, 16, 81, 1606, 16, 609, ⟨[[(0, 68719476736)],
    [(347892350976, 0)]], 1, 1⟩, ⟨[[(0, 474568420793), (0, 4173155415690)], [(0, 86833651890), (0, 82481683)]], 1,
    1⟩, 1099511627776, 0, 373936005413, ⟨[], 0, 0⟩, 0, 0, 0, ⟨0, 2, 168709360450631, [83584451982]⟩⟩ 0 1 18638) (.out
    ⟨430, 16, 81, 1622, 16, 618, ⟨[[(343597383680, 0)], [(347892350976, 0)]], 1, 1⟩, ⟨[[(0, 143031783394), (0,
    4242875303733)], [(0, 82134612273), (0, 83958678)]], 1, 1⟩, 1099511627776, 0, 356168013141, ⟨[], 0, 0⟩, 0, 0, 0,
    ⟨0, 2, 179050892053943, [78832417940]⟩⟩ 0 1 18272))) (.sx (.sx (.out ⟨339, 16, 81, 1597, 16, 608,
    ⟨[[(206158430208, 0)], [(347892350976, 0)]], 1, 1⟩, ⟨[[(294374256256, 0), (0, 3929792227222)], [(0,
    102151245015), (0, 93132510)]], 1, 1⟩, 1099511627776, 0, 412283930045, ⟨[], 0, 0⟩, 0, 0, 0, ⟨0, 2,
    151054402213119, [98392971047]⟩⟩ 0 1 18332) (.out ⟨370, 16, 81, 1623, 16, 621, ⟨[[(0, 481036337152)],
    [(347892350976, 0)]], 1, 1⟩, ⟨[[(0, 351007910078), (0, 4022965501736)], [(0, 96082295137), (0, 95462408)]], 1,
    1⟩, 1099511627776, 0, 383626263654, ⟨[], 0, 0⟩, 0, 0, 0, ⟨0, 2, 163524061003093, [92236759786]⟩⟩ 0 1 17948)) (.sx
    (.out ⟨400, 16, 81, 1646, 16, 633, ⟨[[(0, 68719476736)], [(347892350976, 0)]], 1, 1⟩, ⟨[[(0, 214023511375), (0,
    4110062150730)], [(0, 90805246855), (0, 97655663)]], 1, 1⟩, 1099511627776, 0, 361109605099, ⟨[], 0, 0⟩, 0, 0, 0,
    ⟨0, 2, 175358005197454, [86878420533]⟩⟩ 0 1 17562) (.out ⟨430, 16, 81, 1664, 16, 643, ⟨[[(343597383680, 0)],
    [(347892350976, 0)]], 1, 1⟩, ⟨[[(33116306067, 0), (0, 4184532220154)], [(0, 86017327222), (0, 99555842)]], 1, 1⟩,
    1099511627776, 0, 342480650476, ⟨[], 0, 0⟩, 0, 0, 0, ⟨0, 2, 186294051117614, [82021431611]⟩⟩ 0 1 17198)))) (.sy
    (.sx (.sx (.out ⟨339, 16, 81, 1631, 16, 629, ⟨[[(206158430208, 0)], [(347892350976, 0)]], 1, 1⟩, ⟨[[(0,
    203096178324), (0, 3862691902743)], [(0, 106295427158), (0, 109158893)]], 1, 1⟩, 1099511627776, 0, 403368876223,
    ⟨[], 0, 0⟩, 0, 0, 0, ⟨0, 2, 156271741763243, [101791412481]⟩⟩ 0 1 17348) (.out ⟨370, 16, 81, 1658, 16, 643,
    ⟨[[(0, 481036337152)], [(347892350976, 0)]], 1, 1⟩, ⟨[[(10426989976, 0), (0, 3959401547996)], [(0, 100118288943),
    (0, 112070559)]], 1, 1⟩, 1099511627776, 0, 373447568341, ⟨[], 0, 0⟩, 0, 0, 0, ⟨0, 2, 169317183937180,
    [95504406671]⟩⟩ 0 1 16925)) (.out ⟨205, 16, 40, 1336, 16, 522, ⟨[[], [(343597383680, 0)]], 1, 1⟩, ⟨[[(0,
    68282386681), (0, 3227463888197)], [(0, 145560027151), (0, 183156372)]], 1, 1⟩, 1099511627776, 0, 666188225202,
    ⟨[], 0, 0⟩, 0, 0, 0, ⟨0, 2, 147983238140647, [138045401532]⟩⟩ 0 1 16365)) (.sx (.sx (.out ⟨339, 16, 81, 1659, 16,
    648, ⟨[[(206158430208, 0)], [(347892350976, 0)]], 1, 1⟩, ⟨[[(0, 133014203661), (0, 3793253931479)], [(0,
    110223797781), (0, 126956063)]], 1, 1⟩, 1099511627776, 0, 394972403098, ⟨[], 0, 0⟩, 0, 0, 0, ⟨0, 2,
    160992191832403, [104866192826]⟩⟩ 0 1 16388) (.out ⟨370, 16, 81, 1688, 16, 663, ⟨[[(0, 481036337152)],
    [(347892350976, 0)]], 1, 1⟩, ⟨[[(0, 189307931544), (0, 3893563968835)], [(0, 103970080065), (0, 130591075)]], 1,
    1⟩, 1099511627776, 0, 363888505228, ⟨[], 0, 0⟩, 0, 0, 0, ⟨0, 2, 174583659331804, [98474994747]⟩⟩ 0 1 15973))
    (.out ⟨205, 16, 40, 1349, 16, 534, ⟨[[], [(343597383680, 0)]], 1, 1⟩, ⟨[[(55775403465, 0), (0, 3151200440581)],
    [(0, 150103275715), (0, 212080014)]], 1, 1⟩, 1099511627776, 0, 664500788830, ⟨[], 0, 0⟩, 0, 0, 0, ⟨0, 2,
    151385151661122, [141218859038]⟩⟩ 0 1 15394)))
theorem c0 : checkC job ⟨6, 8, 7, 8, 9, 13⟩ 1 25 lims t0 304 48 64 3 3 64 = true := by decide +kernel

def t1 : CTree :=
  .sy (.sy (.sx (.out ⟨235, 16, 40, 1348, 16, 517, ⟨[[], [(343597383680, 0)]], 1, 1⟩, ⟨[[(258432023298, 0), (0,
    3559597954895)], [(0, 124806422398), (0, 141124397)]], 1, 1⟩, 1099511627776, 0, 571840668304, ⟨[], 0, 0⟩, 0, 0,
    0, ⟨0, 3, 158815284671738, [119269111285]⟩⟩ 0 1 17768) (.out ⟨265, 16, 40, 1390, 16, 537, ⟨[[], [(343597383680,
    0)]], 1, 1⟩, ⟨[[(0, 320416863813), (0, 3711415389702)], [(0, 115626634612), (0, 147487438)]], 1, 1⟩,
    1099511627776, 0, 503111977217, ⟨[], 0, 0⟩, 0, 0, 0, ⟨0, 3, 176151655738382, [109858512453]⟩⟩ 0 1 17215)) (.sx
    (.sx (.out ⟨461, 16, 81, 1680, 16, 652, ⟨[[(0, 343597383680)], [(347892350976, 0)]], 1, 1⟩, ⟨[[(0, 54457858840),
    (0, 4252811317776)], [(0, 81744674445), (0, 101315012)]], 1, 1⟩, 1099511627776, 0, 327156636076, ⟨[], 0, 0⟩, 0,
    0, 0, ⟨0, 3, 196616656832419, [77685774783]⟩⟩ 0 1 16871) (.out ⟨491, 16, 81, 1694, 16, 660, ⟨[[(68719476736, 0)],
    [(347892350976, 0)]], 1, 1⟩, ⟨[[(0, 489173984933), (0, 4314856528741)], [(0, 77890510945), (0, 102931476)]], 1,
    1⟩, 1099511627776, 0, 314293419253, ⟨[], 0, 0⟩, 0, 0, 0, ⟨0, 3, 206340019134750, [73774708012]⟩⟩ 0 1 16578))
    (.out ⟨265, 16, 40, 1413, 16, 554, ⟨[[], [(343597383680, 0)]], 1, 1⟩, ⟨[[(385977791329, 0), (0, 3634340144016)],
    [(0, 120263593035), (0, 173749606)]], 1, 1⟩, 1099511627776, 0, 494645605343, ⟨[], 0, 0⟩, 0, 0, 0, ⟨0, 3,
    181728151357660, [113336342456]⟩⟩ 0 1 16106))) (.sx (.sx (.out ⟨461, 16, 81, 990, 16, 392, ⟨[[(0, 343597383680)],
    [(347892350976, 0)]], 1, 1⟩, ⟨[[(0, 154787891533), (0, 4754802582290)], [(0, 49751470204), (0, 147459181)]], 1,
    1⟩, 1099511627776, 0, 552846381888, ⟨[], 0, 0⟩, 0, 0, 0, ⟨0, 3, 118211241531148, [46706784839]⟩⟩ 0 1 15374) (.out
    ⟨491, 16, 81, 993, 16, 395, ⟨[[(68719476736, 0)], [(347892350976, 0)]], 1, 1⟩, ⟨[[(205664505948, 0), (0,
    4805491255686)], [(0, 47227889159), (0, 149327994)]], 1, 1⟩, 1099511627776, 0, 543497194637, ⟨[], 0, 0⟩, 0, 0, 0,
    ⟨0, 3, 123491375088222, [44153044946]⟩⟩ 0 1 15035)) (.out ⟨265, 16, 40, 880, 16, 352, ⟨[[], [(343597383680, 0)]],
    1, 1⟩, ⟨[[(0, 241213219708), (0, 4301596333584)], [(0, 77510072375), (0, 268153727)]], 1, 1⟩, 1099511627776, 0,
    628132324489, ⟨[], 0, 0⟩, 0, 0, 0, ⟨0, 3, 115466262234470, [72011538889]⟩⟩ 0 1 14628))
theorem c1 : checkC job ⟨6, 8, 7, 8, 9, 13⟩ 1 25 lims t1 400 48 64 3 3 64 = true := by decide +kernel

def t2 : CTree :=
  .sy (.sy (.sx (.sx (.out ⟨339, 16, 81, 1687, 16, 667, ⟨[[(206158430208, 0)], [(347892350976, 0)]], 1, 1⟩, ⟨[[(0,
    343576459357), (0, 3733583414433)], [(0, 114288356758), (0, 147168933)]], 1, 1⟩, 1099511627776, 0, 388065456587,
    ⟨[], 0, 0⟩, 0, 0, 0, ⟨0, 2, 165712641901563, [107940973171]⟩⟩ 0 1 15483) (.out ⟨370, 16, 81, 1715, 16, 682,
    ⟨[[(0, 481036337152)], [(347892350976, 0)]], 1, 1⟩, ⟨[[(0, 195232966420), (0, 3832041302362)], [(0,
    107806154299), (0, 151487889)]], 1, 1⟩, 1099511627776, 0, 355267875674, ⟨[], 0, 0⟩, 0, 0, 0, ⟨0, 2,
    179586810956698, [101297053420]⟩⟩ 0 1 15056)) (.sx (.out ⟨400, 16, 81, 1741, 16, 696, ⟨[[(0, 68719476736)],
    [(347892350976, 0)]], 1, 1⟩, ⟨[[(0, 253918857549), (0, 3925596463790)], [(0, 102187286171), (0, 155646213)]], 1,
    1⟩, 1099511627776, 0, 329251921001, ⟨[], 0, 0⟩, 0, 0, 0, ⟨0, 2, 192810697657864, [95525087980]⟩⟩ 0 1 14670) (.out
    ⟨430, 16, 81, 1760, 16, 707, ⟨[[(343597383680, 0)], [(347892350976, 0)]], 1, 1⟩, ⟨[[(0, 523884441718), (0,
    4002868990491)], [(0, 96972698345), (0, 159189667)]], 1, 1⟩, 1099511627776, 0, 307270521108, ⟨[], 0, 0⟩, 0, 0, 0,
    ⟨0, 2, 204836538320612, [90185306608]⟩⟩ 0 1 14317))) (.sx (.out ⟨175, 16, 40, 1293, 16, 519, ⟨[[],
    [(343597383680, 0)]], 1, 1⟩, ⟨[[(79223536987, 0), (0, 2792689363263)], [(0, 172137151358), (0, 258717285)]], 1,
    1⟩, 1099511627776, 0, 824837104344, ⟨[], 0, 0⟩, 0, 0, 0, ⟨0, 2, 132886691780565, [160780957811]⟩⟩ 0 1 14374) (.sx
    (.out ⟨400, 16, 81, 1762, 16, 713, ⟨[[(0, 68719476736)], [(347892350976, 0)]], 1, 1⟩, ⟨[[(0, 235676313964), (0,
    3862337796943)], [(0, 105700247545), (0, 179979034)]], 1, 1⟩, 1099511627776, 0, 319463551526, ⟨[], 0, 0⟩, 0, 0,
    0, ⟨0, 2, 197520154353530, [97858315704]⟩⟩ 0 1 13786) (.out ⟨430, 16, 81, 1785, 16, 726, ⟨[[(343597383680, 0)],
    [(347892350976, 0)]], 1, 1⟩, ⟨[[(0, 193329719417), (0, 3950427508833)], [(0, 100622288457), (0, 184836054)]], 1,
    1⟩, 1099511627776, 0, 297153409248, ⟨[], 0, 0⟩, 0, 0, 0, ⟨0, 2, 210341339209001, [92608956998]⟩⟩ 0 1 13419))))
    (.sy (.sx (.sx (.out ⟨339, 16, 81, 1724, 16, 698, ⟨[[(206158430208, 0)], [(347892350976, 0)]], 1, 1⟩,
    ⟨[[(161998476712, 0), (0, 3605334696171)], [(0, 121684018654), (0, 194957577)]], 1, 1⟩, 1099511627776, 0,
    373774528778, ⟨[], 0, 0⟩, 0, 0, 0, ⟨0, 2, 173414428856508, [112957720050]⟩⟩ 0 1 13747) (.out ⟨370, 16, 81, 1756,
    16, 715, ⟨[[(0, 481036337152)], [(347892350976, 0)]], 1, 1⟩, ⟨[[(0, 350002952960), (0, 3712416139022)], [(0,
    115175514714), (0, 201810844)]], 1, 1⟩, 1099511627776, 0, 338917455013, ⟨[], 0, 0⟩, 0, 0, 0, ⟨0, 2,
    188276495357828, [106198523747]⟩⟩ 0 1 13339)) (.sx (.out ⟨400, 16, 81, 1780, 16, 729, ⟨[[(0, 68719476736)],
    [(347892350976, 0)]], 1, 1⟩, ⟨[[(189502520574, 0), (0, 3804964876182)], [(0, 109246463162), (0, 207955102)]], 1,
    1⟩, 1099511627776, 0, 310198122517, ⟨[], 0, 0⟩, 0, 0, 0, ⟨0, 2, 201952584184745, [100054294738]⟩⟩ 0 1 12922)
    (.out ⟨430, 16, 81, 1803, 16, 742, ⟨[[(343597383680, 0)], [(347892350976, 0)]], 1, 1⟩, ⟨[[(0, 518220736794), (0,
    3893246151964)], [(0, 104046611227), (0, 213941608)]], 1, 1⟩, 1099511627776, 0, 286689482666, ⟨[], 0, 0⟩, 0, 0,
    0, ⟨0, 2, 214976961009751, [94649925747]⟩⟩ 0 1 12578))) (.sx (.sx (.out ⟨339, 16, 81, 1739, 16, 712,
    ⟨[[(206158430208, 0)], [(347892350976, 0)]], 1, 1⟩, ⟨[[(20804199514, 0), (0, 3548801899731)], [(0, 125392100773),
    (0, 224208288)]], 1, 1⟩, 1099511627776, 0, 367178042808, ⟨[], 0, 0⟩, 0, 0, 0, ⟨0, 2, 176892655223258,
    [115223347673]⟩⟩ 0 1 12943) (.out ⟨370, 16, 81, 1770, 16, 729, ⟨[[(0, 481036337152)], [(347892350976, 0)]], 1,
    1⟩, ⟨[[(0, 259581426854), (0, 3655716761671)], [(0, 118743739672), (0, 232580182)]], 1, 1⟩, 1099511627776, 0,
    330814561466, ⟨[], 0, 0⟩, 0, 0, 0, ⟨0, 2, 191963028134065, [108277935401]⟩⟩ 0 1 12521)) (.out ⟨205, 16, 40, 1370,
    16, 569, ⟨[[], [(343597383680, 0)]], 1, 1⟩, ⟨[[(0, 190463009372), (0, 2879765950098)], [(0, 166941848490), (0,
    370342471)]], 1, 1⟩, 1099511627776, 0, 654864899501, ⟨[], 0, 0⟩, 0, 0, 0, ⟨0, 2, 161307399429173,
    [150474776766]⟩⟩ 0 1 11929)))
theorem c2 : checkC job ⟨6, 8, 7, 8, 9, 13⟩ 1 25 lims t2 304 48 64 9 3 64 = true := by decide +kernel

def t3 : CTree :=
  .sy (.sy (.sx (.out ⟨235, 16, 40, 1416, 16, 573, ⟨[[], [(343597383680, 0)]], 1, 1⟩, ⟨[[(235571740873, 0), (0,
    3262867250119)], [(0, 143238625967), (0, 260724322)]], 1, 1⟩, 1099511627776, 0, 552737540932, ⟨[], 0, 0⟩, 0, 0,
    0, ⟨0, 3, 176017713959199, [132188009219]⟩⟩ 0 1 13785) (.out ⟨265, 16, 40, 1461, 16, 596, ⟨[[], [(343597383680,
    0)]], 1, 1⟩, ⟨[[(0, 268372428588), (0, 3420054584195)], [(0, 133490926890), (0, 275018393)]], 1, 1⟩,
    1099511627776, 0, 473086377074, ⟨[], 0, 0⟩, 0, 0, 0, ⟨0, 3, 195505375828818, [121928628347]⟩⟩ 0 1 13204)) (.sx
    (.out ⟨235, 16, 40, 1423, 16, 583, ⟨[[], [(343597383680, 0)]], 1, 1⟩, ⟨[[(181441184970, 0), (0, 3193825887207)],
    [(0, 147434057205), (0, 300739210)]], 1, 1⟩, 1099511627776, 0, 547785184094, ⟨[], 0, 0⟩, 0, 0, 0, ⟨0, 3,
    179089576331960, [134494955279]⟩⟩ 0 1 12897) (.out ⟨265, 16, 40, 1467, 16, 606, ⟨[[], [(343597383680, 0)]], 1,
    1⟩, ⟨[[(0, 391121402069), (0, 3350100289069)], [(0, 137521238615), (0, 318142953)]], 1, 1⟩, 1099511627776, 0,
    465434626379, ⟨[], 0, 0⟩, 0, 0, 0, ⟨0, 3, 198785667369570, [123974410701]⟩⟩ 0 1 12311))) (.sx (.sx (.out ⟨461,
    16, 81, 1067, 16, 444, ⟨[[(0, 343597383680)], [(347892350976, 0)]], 1, 1⟩, ⟨[[(0, 6118470244), (0,
    4607473647559)], [(0, 58950978608), (0, 276088237)]], 1, 1⟩, 1099511627776, 0, 391494843156, ⟨[], 0, 0⟩, 0, 0, 0,
    ⟨0, 3, 133892324591402, [52902582828]⟩⟩ 0 1 11795) (.out ⟨491, 16, 81, 1067, 16, 446, ⟨[[(68719476736, 0)],
    [(347892350976, 0)]], 1, 1⟩, ⟨[[(0, 246624994390), (0, 4655014007250)], [(0, 55959084529), (0, 280720116)]], 1,
    1⟩, 1099511627776, 0, 374867340603, ⟨[], 0, 0⟩, 0, 0, 0, ⟨0, 3, 139435831112271, [49853817838]⟩⟩ 0 1 11479))
    (.out ⟨265, 16, 40, 924, 16, 389, ⟨[[], [(343597383680, 0)]], 1, 1⟩, ⟨[[(322228617114, 0), (0, 4095673366056)],
    [(0, 90309593811), (0, 498762391)]], 1, 1⟩, 1099511627776, 0, 484536627116, ⟨[], 0, 0⟩, 0, 0, 0, ⟨0, 3,
    127603340935252, [79580933602]⟩⟩ 0 1 10981))
theorem c3 : checkC job ⟨6, 8, 7, 8, 9, 13⟩ 1 25 lims t3 400 48 64 9 3 64 = true := by decide +kernel

def t4 : CTree :=
  .sy (.sx (.sx (.out ⟨295, 16, 40, 852, 16, 334, ⟨[[], [(343597383680, 0)]], 1, 1⟩, ⟨[[(172830267564, 0), (0,
    4514643783509)], [(0, 65264497649), (0, 197439108)]], 1, 1⟩, 1099511627776, 0, 682864520682, ⟨[], 0, 0⟩, 0, 0, 0,
    ⟨0, 3, 115775876250345, [61380405500]⟩⟩ 0 1 16116) (.out ⟨325, 16, 40, 857, 16, 338, ⟨[[], [(343597383680, 0)]],
    1, 1⟩, ⟨[[(0, 160578983461), (0, 4587956810638)], [(0, 60324096729), (0, 201144723)]], 1, 1⟩, 1099511627776, 0,
    655994717825, ⟨[], 0, 0⟩, 0, 0, 0, ⟨0, 3, 122841400052355, [56381761699]⟩⟩ 0 1 15666)) (.sx (.sx (.sy (.out ⟨704,
    16, 81, 1698, 16, 668, ⟨[[(0, 343597383680)], [(347892350976, 0)]], 1, 1⟩, ⟨[[(471847340199, 0), (0,
    4665652511982)], [(0, 55721642761), (0, 93288449)]], 1, 1⟩, 1099511627776, 0, 280249133854, ⟨[], 0, 0⟩, 0, 0, 0,
    ⟨0, 3, 250532673997008, [52107106827]⟩⟩ 0 1 15854) (.out ⟨704, 16, 81, 1744, 16, 696, ⟨[[(0, 343597383680)],
    [(347892350976, 0)]], 1, 1⟩, ⟨[[(0, 269541618218), (0, 4624100826519)], [(0, 58682136646), (0, 111381679)]], 1,
    1⟩, 1099511627776, 0, 260439667808, ⟨[], 0, 0⟩, 0, 0, 0, ⟨0, 3, 261034043565745, [54291237053]⟩⟩ 0 1 14796))
    (.out ⟨734, 16, 81, 936, 16, 372, ⟨[[(68719476736, 0)], [(347892350976, 0)]], 1, 1⟩, ⟨[[(178720660526, 0), (0,
    5076144086089)], [(0, 29994296112), (0, 111619027)]], 1, 1⟩, 1099511627776, 0, 595211718572, ⟨[], 0, 0⟩, 0, 0, 0,
    ⟨0, 3, 142245450741431, [27816996488]⟩⟩ 0 1 15099)) (.out ⟨385, 16, 40, 862, 16, 344, ⟨[[], [(343597383680, 0)]],
    1, 1⟩, ⟨[[(182785965123, 0), (0, 4708969399875)], [(0, 52475203087), (0, 207473116)]], 1, 1⟩, 1099511627776, 0,
    615503519390, ⟨[], 0, 0⟩, 0, 0, 0, ⟨0, 3, 135132540595665, [48439875186]⟩⟩ 0 1 14798))) (.sx (.sx (.out ⟨295, 16,
    40, 888, 16, 358, ⟨[[], [(343597383680, 0)]], 1, 1⟩, ⟨[[(252547157156, 0), (0, 4401233504258)], [(0,
    71407985826), (0, 275504406)]], 1, 1⟩, 1099511627776, 0, 589178790314, ⟨[], 0, 0⟩, 0, 0, 0, ⟨0, 3,
    124095100891088, [65790973560]⟩⟩ 0 1 14056) (.sy (.out ⟨325, 16, 40, 1494, 16, 602, ⟨[[], [(343597383680, 0)]],
    1, 1⟩, ⟨[[(0, 156508766079), (0, 3804674340161)], [(0, 109227142160), (0, 218985283)]], 1, 1⟩, 1099511627776, 0,
    388297049320, ⟨[], 0, 0⟩, 0, 0, 0, ⟨0, 3, 218788529087330, [100419587404]⟩⟩ 0 1 14093) (.out ⟨325, 16, 40, 1510,
    16, 617, ⟨[[], [(343597383680, 0)]], 1, 1⟩, ⟨[[(278669566322, 0), (0, 3737221036229)], [(0, 113388940435), (0,
    256325641)]], 1, 1⟩, 1099511627776, 0, 377181208095, ⟨[], 0, 0⟩, 0, 0, 0, ⟨0, 3, 224240070509772,
    [102921736592]⟩⟩ 0 1 13087))) (.sy (.sx (.out ⟨355, 16, 40, 1517, 16, 615, ⟨[[], [(343597383680, 0)]], 1, 1⟩,
    ⟨[[(0, 261273542874), (0, 3908411023886)], [(0, 102951779224), (0, 225789984)]], 1, 1⟩, 1099511627776, 0,
    354597026651, ⟨[], 0, 0⟩, 0, 0, 0, ⟨0, 3, 232933281497141, [93918698387]⟩⟩ 0 1 13652) (.out ⟨385, 16, 40, 1533,
    16, 625, ⟨[[], [(343597383680, 0)]], 1, 1⟩, ⟨[[(0, 415562599647), (0, 3994093229094)], [(0, 97224002767), (0,
    231601984)]], 1, 1⟩, 1099511627776, 0, 326683637608, ⟨[], 0, 0⟩, 0, 0, 0, ⟨0, 3, 245516970558985, [88008494160]⟩⟩
    0 1 13247)) (.sx (.out ⟨355, 16, 40, 1532, 16, 630, ⟨[[], [(343597383680, 0)]], 1, 1⟩, ⟨[[(398166947564, 0), (0,
    3841234531932)], [(0, 106948678705), (0, 264770790)]], 1, 1⟩, 1099511627776, 0, 341650724013, ⟨[], 0, 0⟩, 0, 0,
    0, ⟨0, 3, 238614581045851, [96209398348]⟩⟩ 0 1 12631) (.out ⟨385, 16, 40, 1550, 16, 641, ⟨[[], [(343597383680,
    0)]], 1, 1⟩, ⟨[[(0, 47849336755), (0, 3934316463341)], [(0, 101240633357), (0, 272547588)]], 1, 1⟩,
    1099511627776, 0, 312672017252, ⟨[], 0, 0⟩, 0, 0, 0, ⟨0, 3, 251802205005295, [90261511610]⟩⟩ 0 1 12232))))
theorem c4 : checkC job ⟨6, 8, 7, 8, 9, 13⟩ 1 25 lims t4 272 48 32 3 3 64 = true := by decide +kernel

def t5 : CTree :=
  .sy (.sx (.sx (.out ⟨295, 16, 40, 916, 16, 379, ⟨[[], [(343597383680, 0)]], 1, 1⟩, ⟨[[(0, 86216533987), (0,
    4303417075006)], [(0, 77596512274), (0, 378963927)]], 1, 1⟩, 1099511627776, 0, 508795368711, ⟨[], 0, 0⟩, 0, 0, 0,
    ⟨0, 3, 131374422451739, [69650220612]⟩⟩ 0 1 12196) (.out ⟨325, 16, 40, 919, 16, 383, ⟨[[], [(343597383680, 0)]],
    1, 1⟩, ⟨[[(35419777970, 0), (0, 4385896980761)], [(0, 71971339843), (0, 389172414)]], 1, 1⟩, 1099511627776, 0,
    470349436557, ⟨[], 0, 0⟩, 0, 0, 0, ⟨0, 3, 139196024319680, [63888209262]⟩⟩ 0 1 11687)) (.sx (.sy (.out ⟨355, 16,
    40, 1543, 16, 643, ⟨[[], [(343597383680, 0)]], 1, 1⟩, ⟨[[(0, 11646416495), (0, 3777066311282)], [(0,
    110892529978), (0, 309767230)]], 1, 1⟩, 1099511627776, 0, 328903485465, ⟨[], 0, 0⟩, 0, 0, 0, ⟨0, 3,
    243538373988067, [98194671647]⟩⟩ 0 1 11693) (.out ⟨355, 16, 40, 1546, 16, 653, ⟨[[], [(343597383680, 0)]], 1, 1⟩,
    ⟨[[(443336453756, 0), (0, 3711355081459)], [(0, 114642270625), (0, 361803669)]], 1, 1⟩, 1099511627776, 0,
    315521183134, ⟨[], 0, 0⟩, 0, 0, 0, ⟨0, 3, 247325907020541, [99721804954]⟩⟩ 0 1 10753)) (.out ⟨385, 16, 40, 922,
    16, 389, ⟨[[], [(343597383680, 0)]], 1, 1⟩, ⟨[[(0, 452865615476), (0, 4531742526679)], [(0, 63095182120), (0,
    408337492)]], 1, 1⟩, 1099511627776, 0, 409201114462, ⟨[], 0, 0⟩, 0, 0, 0, ⟨0, 3, 152809762475912, [54776486765]⟩⟩
    0 1 10830))) (.sx (.sx (.out ⟨295, 16, 40, 929, 16, 394, ⟨[[], [(343597383680, 0)]], 1, 1⟩, ⟨[[(0, 491541520197),
    (0, 4197416890847)], [(0, 83381682337), (0, 517813083)]], 1, 1⟩, 1099511627776, 0, 429865555678, ⟨[], 0, 0⟩, 0,
    0, 0, ⟨0, 3, 136573937852203, [72406825649]⟩⟩ 0 1 10470) (.out ⟨325, 16, 40, 931, 16, 398, ⟨[[], [(343597383680,
    0)]], 1, 1⟩, ⟨[[(0, 82255439809), (0, 4290874862515)], [(0, 77588254457), (0, 536261180)]], 1, 1⟩, 1099511627776,
    0, 384310731456, ⟨[], 0, 0⟩, 0, 0, 0, ⟨0, 3, 144647565742122, [66390358450]⟩⟩ 0 1 9924)) (.out ⟨185, 16, 20, 771,
    16, 333, ⟨[[], [(343597383680, 0)]], 1, 1⟩, ⟨[[(0, 176077664336), (0, 3655942102788)], [(0, 116608536109), (0,
    931720938)]], 1, 1⟩, 1099511627776, 0, 600071739642, ⟨[], 0, 0⟩, 0, 0, 0, ⟨0, 3, 128515658211266, [97583818324]⟩⟩
    0 1 9225))
theorem c5 : checkC job ⟨6, 8, 7, 8, 9, 13⟩ 1 25 lims t5 272 48 32 9 3 64 = true := by decide +kernel

def t6 : CTree :=
  .sx (.sy (.sy (.sx (.sx (.out ⟨415, 16, 40, 1500, 16, 597, ⟨[[], [(343597383680, 0)]], 1, 1⟩, ⟨[[(0, 94940911056),
    (0, 4206015911403)], [(0, 84485871200), (0, 169027981)]], 1, 1⟩, 1099511627776, 0, 337476443358, ⟨[], 0, 0⟩, 0,
    0, 0, ⟨0, 3, 242289126388045, [77988674083]⟩⟩ 0 1 14995) (.out ⟨445, 16, 40, 1510, 16, 604, ⟨[[], [(343597383680,
    0)]], 1, 1⟩, ⟨[[(301745293200, 0), (0, 4271798848599)], [(0, 80172750669), (0, 172035039)]], 1, 1⟩,
    1099511627776, 0, 320399113206, ⟨[], 0, 0⟩, 0, 0, 0, ⟨0, 3, 252443470163190, [73583803081]⟩⟩ 0 1 14628)) (.out
    ⟨245, 16, 20, 1252, 16, 504, ⟨[[], [(343597383680, 0)]], 1, 1⟩, ⟨[[(0, 167917556132), (0, 3585311144482)], [(0,
    122557857166), (0, 289664667)]], 1, 1⟩, 1099511627776, 0, 512473190646, ⟨[], 0, 0⟩, 0, 0, 0, ⟨0, 4,
    219070913906638, [111524363799]⟩⟩ 0 1 14163)) (.sx (.out ⟨215, 16, 20, 1227, 16, 497, ⟨[[], [(343597383680, 0)]],
    1, 1⟩, ⟨[[(0, 38914075237), (0, 3344407203876)], [(0, 137969563445), (0, 324717656)]], 1, 1⟩, 1099511627776, 0,
    593380825855, ⟨[], 0, 0⟩, 0, 0, 0, ⟨0, 3, 204766095521423, [125320820949]⟩⟩ 0 1 13715) (.out ⟨245, 16, 20, 1262,
    16, 516, ⟨[[], [(343597383680, 0)]], 1, 1⟩, ⟨[[(94848066098, 0), (0, 3504867943478)], [(0, 127388748498), (0,
    342170519)]], 1, 1⟩, 1099511627776, 0, 500718858718, ⟨[], 0, 0⟩, 0, 0, 0, ⟨0, 4, 224286888047273,
    [114179705794]⟩⟩ 0 1 13040))) (.sx (.out ⟨215, 16, 20, 778, 16, 322, ⟨[[], [(343597383680, 0)]], 1, 1⟩, ⟨[[(0,
    261731176891), (0, 4068225829563)], [(0, 91495749385), (0, 519261277)]], 1, 1⟩, 1099511627776, 0, 641220612591,
    ⟨[], 0, 0⟩, 0, 0, 0, ⟨0, 3, 132665357661767, [81193771319]⟩⟩ 0 1 12175) (.out ⟨245, 16, 20, 787, 16, 329, ⟨[[],
    [(343597383680, 0)]], 1, 1⟩, ⟨[[(0, 36883538282), (0, 4208134928064)], [(0, 83414192184), (0, 541767132)]], 1,
    1⟩, 1099511627776, 0, 567330753283, ⟨[], 0, 0⟩, 0, 0, 0, ⟨0, 4, 143004624355722, [72800626369]⟩⟩ 0 1 11471)))
    (.sy (.sx (.sy (.out ⟨275, 16, 20, 1281, 16, 520, ⟨[[], [(343597383680, 0)]], 1, 1⟩, ⟨[[(126437415154, 0), (0,
    3727989400691)], [(0, 113944384085), (0, 302360881)]], 1, 1⟩, 1099511627776, 0, 448406654333, ⟨[], 0, 0⟩, 0, 0,
    0, ⟨0, 4, 236446058213848, [102512293997]⟩⟩ 0 1 13559) (.out ⟨275, 16, 20, 1290, 16, 532, ⟨[[], [(343597383680,
    0)]], 1, 1⟩, ⟨[[(365285258972, 0), (0, 3647663678030)], [(0, 118572129118), (0, 358006840)]], 1, 1⟩,
    1099511627776, 0, 433462426000, ⟨[], 0, 0⟩, 0, 0, 0, ⟨0, 4, 241902505711090, [104877962320]⟩⟩ 0 1 12428)) (.out
    ⟨305, 16, 20, 774, 16, 319, ⟨[[], [(343597383680, 0)]], 1, 1⟩, ⟨[[(0, 142042497387), (0, 4508763666761)], [(0,
    64326616962), (0, 404186660)]], 1, 1⟩, 1099511627776, 0, 578615153267, ⟨[], 0, 0⟩, 0, 0, 0, ⟨0, 4,
    150780593643280, [56701708644]⟩⟩ 0 1 12473)) (.sx (.sy (.out ⟨275, 16, 20, 1295, 16, 542, ⟨[[], [(343597383680,
    0)]], 1, 1⟩, ⟨[[(0, 318231336977), (0, 3572489705668)], [(0, 123158842082), (0, 422799150)]], 1, 1⟩,
    1099511627776, 0, 419058568818, ⟨[], 0, 0⟩, 0, 0, 0, ⟨0, 4, 246449545292126, [106849352589]⟩⟩ 0 1 11389) (.out
    ⟨275, 16, 20, 1292, 16, 549, ⟨[[], [(343597383680, 0)]], 1, 1⟩, ⟨[[(30484319631, 0), (0, 3496945786742)], [(0,
    127521747723), (0, 497884232)]], 1, 1⟩, 1099511627776, 0, 403910548502, ⟨[], 0, 0⟩, 0, 0, 0, ⟨0, 4,
    249632472998851, [108229325778]⟩⟩ 0 1 10338)) (.out ⟨305, 16, 20, 790, 16, 336, ⟨[[], [(343597383680, 0)]], 1,
    1⟩, ⟨[[(208183518429, 0), (0, 4406142549315)], [(0, 70736167108), (0, 576711018)]], 1, 1⟩, 1099511627776, 0,
    456869612065, ⟨[], 0, 0⟩, 0, 0, 0, ⟨0, 4, 158815923085084, [59723429794]⟩⟩ 0 1 10275)))
theorem c6 : checkC job ⟨6, 8, 7, 8, 9, 13⟩ 1 25 lims t6 208 48 16 3 3 64 = true := by decide +kernel

def t7 : CTree :=
  .sx (.sx (.sy (.sx (.out ⟨415, 16, 40, 921, 16, 391, ⟨[[], [(343597383680, 0)]], 1, 1⟩, ⟨[[(0, 38709419361), (0,
    4594768071985)], [(0, 59494748095), (0, 417211545)]], 1, 1⟩, 1099511627776, 0, 382990763902, ⟨[], 0, 0⟩, 0, 0, 0,
    ⟨0, 3, 158685173229021, [51078009324]⟩⟩ 0 1 10401) (.out ⟨445, 16, 40, 918, 16, 392, ⟨[[], [(343597383680, 0)]],
    1, 1⟩, ⟨[[(290414523847, 0), (0, 4647005127681)], [(0, 56250311575), (0, 425193727)]], 1, 1⟩, 1099511627776, 0,
    358019222652, ⟨[], 0, 0⟩, 0, 0, 0, ⟨0, 3, 163837483946971, [47756375510]⟩⟩ 0 1 10001)) (.out ⟨215, 16, 20, 777,
    16, 340, ⟨[[], [(343597383680, 0)]], 1, 1⟩, ⟨[[(295010785088, 0), (0, 3826450553095)], [(0, 105557864428), (0,
    1000275436)]], 1, 1⟩, 1099511627776, 0, 468967145556, ⟨[], 0, 0⟩, 0, 0, 0, ⟨0, 3, 140081433555903,
    [85732553567]⟩⟩ 0 1 8347)) (.out ⟨245, 16, 20, 454, 16, 198, ⟨[[], [(343597383680, 0)]], 1, 1⟩, ⟨[[(0,
    186098749943), (0, 4648485624472)], [(0, 53909686230), (0, 1033348403)]], 1, 1⟩, 1099511627776, 0, 693073771723,
    ⟨[], 0, 0⟩, 0, 0, 0, ⟨0, 4, 86063573320465, [43813142921]⟩⟩ 0 1 8570)) (.sx (.out ⟨275, 16, 20, 447, 16, 197,
    ⟨[[], [(343597383680, 0)]], 1, 1⟩, ⟨[[(70247809486, 0), (0, 4725728171089)], [(0, 49047347455), (0,
    1070397354)]], 1, 1⟩, 1099511627776, 0, 565917506156, ⟨[], 0, 0⟩, 0, 0, 0, ⟨0, 4, 89576679746400, [38836388303]⟩⟩
    0 1 7872) (.sy (.out ⟨305, 16, 20, 787, 16, 345, ⟨[[], [(343597383680, 0)]], 1, 1⟩, ⟨[[(377635396845, 0), (0,
    4296559793314)], [(0, 76815643344), (0, 818356145)]], 1, 1⟩, 1099511627776, 0, 335941164260, ⟨[], 0, 0⟩, 0, 0, 0,
    ⟨0, 4, 163069921024863, [61323164521]⟩⟩ 0 1 8226) (.out ⟨305, 16, 20, 762, 16, 344, ⟨[[], [(343597383680, 0)]],
    1, 1⟩, ⟨[[(16203838976, 0), (0, 4185758501097)], [(0, 82471797707), (0, 1173424071)]], 1, 1⟩, 1099511627776, 0,
    236920691436, ⟨[], 0, 0⟩, 0, 0, 0, ⟨0, 4, 162597254587110, [61145416218]⟩⟩ 0 1 6294)))
theorem c7 : checkC job ⟨6, 8, 7, 8, 9, 13⟩ 1 25 lims t7 208 48 16 9 3 64 = true := by decide +kernel

def t8 : CTree :=
  .sx (.sy (.sx (.sx (.out ⟨335, 16, 20, 776, 16, 322, ⟨[[], [(343597383680, 0)]], 1, 1⟩, ⟨[[(0, 320357733646), (0,
    4590580986351)], [(0, 59838670403), (0, 413151333)]], 1, 1⟩, 1099511627776, 0, 544723946038, ⟨[], 0, 0⟩, 0, 0, 0,
    ⟨0, 4, 157439431963461, [52109435324]⟩⟩ 0 1 11993) (.out ⟨365, 16, 20, 773, 16, 323, ⟨[[], [(343597383680, 0)]],
    1, 1⟩, ⟨[[(75219569918, 0), (0, 4644868997667)], [(0, 55758691079), (0, 419542206)]], 1, 1⟩, 1099511627776, 0,
    512446284003, ⟨[], 0, 0⟩, 0, 0, 0, ⟨0, 4, 162734300746218, [47974997441]⟩⟩ 0 1 11503)) (.out ⟨205, 16, 10, 669,
    16, 282, ⟨[[], [(343597383680, 0)]], 1, 1⟩, ⟨[[(0, 138914470071), (0, 4108490585556)], [(0, 88239871897), (0,
    745627239)]], 1, 1⟩, 1099511627776, 0, 632646379306, ⟨[], 0, 0⟩, 0, 0, 0, ⟨0, 4, 147765289467052, [74576251402]⟩⟩
    0 1 10893)) (.sx (.sx (.out ⟨335, 16, 20, 787, 16, 337, ⟨[[], [(343597383680, 0)]], 1, 1⟩, ⟨[[(0, 456875288208),
    (0, 4475353861849)], [(0, 65665894377), (0, 590278655)]], 1, 1⟩, 1099511627776, 0, 411467334133, ⟨[], 0, 0⟩, 0,
    0, 0, ⟨0, 4, 164773566992814, [54536893491]⟩⟩ 0 1 9810) (.out ⟨365, 16, 20, 783, 16, 338, ⟨[[], [(343597383680,
    0)]], 1, 1⟩, ⟨[[(402939266325, 0), (0, 4546038656709)], [(0, 61445992018), (0, 603893718)]], 1, 1⟩,
    1099511627776, 0, 371781578510, ⟨[], 0, 0⟩, 0, 0, 0, ⟨0, 4, 170291621214309, [50202938499]⟩⟩ 0 1 9262)) (.sx
    (.out ⟨395, 16, 20, 778, 16, 338, ⟨[[], [(343597383680, 0)]], 1, 1⟩, ⟨[[(185747697265, 0), (0, 4604578474542)],
    [(0, 57711139851), (0, 615664673)]], 1, 1⟩, 1099511627776, 0, 334618041627, ⟨[], 0, 0⟩, 0, 0, 0, ⟨0, 4,
    174923267229576, [46390057094]⟩⟩ 0 1 8829) (.out ⟨425, 16, 20, 773, 16, 338, ⟨[[], [(343597383680, 0)]], 1, 1⟩,
    ⟨[[(300436420929, 0), (0, 4664241131317)], [(0, 54511291540), (0, 627274979)]], 1, 1⟩, 1099511627776, 0,
    299582739244, ⟨[], 0, 0⟩, 0, 0, 0, ⟨0, 4, 179215697585984, [43115464828]⟩⟩ 0 1 8397)))) (.sy (.sx (.out ⟨235, 16,
    10, 671, 16, 286, ⟨[[], [(343597383680, 0)]], 1, 1⟩, ⟨[[(0, 17018203720), (0, 4240178473785)], [(0, 79919493563),
    (0, 773020417)]], 1, 1⟩, 1099511627776, 0, 541662796224, ⟨[], 0, 0⟩, 0, 0, 0, ⟨0, 5, 156637575976092,
    [65978657307]⟩⟩ 0 1 10127) (.out ⟨265, 16, 10, 669, 16, 288, ⟨[[], [(343597383680, 0)]], 1, 1⟩, ⟨[[(0,
    12670587529), (0, 4345323184467)], [(0, 73024145533), (0, 794113966)]], 1, 1⟩, 1099511627776, 0, 466666247350,
    ⟨[], 0, 0⟩, 0, 0, 0, ⟨0, 5, 163735703678404, [58918531818]⟩⟩ 0 1 9448)) (.sx (.out ⟨235, 16, 10, 662, 16, 292,
    ⟨[[], [(343597383680, 0)]], 1, 1⟩, ⟨[[(112822807079, 0), (0, 4108559194019)], [(0, 87234683543), (0,
    1113132298)]], 1, 1⟩, 1099511627776, 0, 399466635337, ⟨[], 0, 0⟩, 0, 0, 0, ⟨0, 5, 159923678968597,
    [67362824943]⟩⟩ 0 1 7816) (.out ⟨265, 16, 10, 657, 16, 293, ⟨[[], [(343597383680, 0)]], 1, 1⟩, ⟨[[(71531880986,
    0), (0, 4231663424295)], [(0, 80100580267), (0, 1154148715)]], 1, 1⟩, 1099511627776, 0, 315629060458, ⟨[], 0, 0⟩,
    0, 0, 0, ⟨0, 5, 166578337422820, [59941422996]⟩⟩ 0 1 7090)))
theorem c8 : checkC job ⟨6, 8, 7, 8, 9, 13⟩ 1 25 lims t8 176 48 8 3 3 64 = true := by decide +kernel

def t9 : CTree :=
  .sx (.sx (.sx (.out ⟨335, 16, 20, 430, 16, 193, ⟨[[], [(343597383680, 0)]], 1, 1⟩, ⟨[[(221198443300, 0), (0,
    4839295918396)], [(0, 41562937089), (0, 1134398139)]], 1, 1⟩, 1099511627776, 0, 447785439179, ⟨[], 0, 0⟩, 0, 0,
    0, ⟨0, 4, 94365870711018, [31233295086]⟩⟩ 0 1 6671) (.out ⟨365, 16, 20, 420, 16, 190, ⟨[[], [(343597383680, 0)]],
    1, 1⟩, ⟨[[(52885487280, 0), (0, 4873352353659)], [(0, 38549395098), (0, 1159953464)]], 1, 1⟩, 1099511627776, 0,
    412694273774, ⟨[], 0, 0⟩, 0, 0, 0, ⟨0, 4, 95726059262481, [28220586730]⟩⟩ 0 1 6160)) (.out ⟨205, 16, 10, 365, 16,
    167, ⟨[[], [(343597383680, 0)]], 1, 1⟩, ⟨[[(0, 72400924515), (0, 4434368869371)], [(0, 62736413351), (0,
    2154092227)]], 1, 1⟩, 1099511627776, 0, 723295696007, ⟨[], 0, 0⟩, 0, 0, 0, ⟨0, 4, 87506394826233, [44163950299]⟩⟩
    0 1 5432)) (.sy (.out ⟨200, 26, 8, 490, 16, 225, ⟨[[], [(549755813888, 0)]], 1, 1⟩, ⟨[[(0, 27886676304), (0,
    3169940789111)], [(0, 141132515948), (0, 2578195373)]], 1, 1⟩, 1099511627776, 0, 816978488771, ⟨[], 0, 0⟩, 0, 0,
    0, ⟨0, 5, 125644077481022, [97583818324]⟩⟩ 0 1 5202) (.sx (.sy (.out ⟨235, 16, 10, 920, 16, 431, ⟨[[],
    [(343597383680, 0)]], 1, 1⟩, ⟨[[(94222089359, 0), (0, 3025576640900)], [(0, 153476816945), (0, 1670304474)]], 1,
    1⟩, 1099511627776, 0, 439282519573, ⟨[], 0, 0⟩, 0, 0, 0, ⟨0, 5, 236051731628306, [99429375172]⟩⟩ 0 1 3938) (.out
    ⟨235, 16, 10, 857, 16, 409, ⟨[[], [(343597383680, 0)]], 1, 1⟩, ⟨[[(264684714604, 0), (0, 2958077339287)], [(0,
    156428039044), (0, 2038895625)]], 1, 1⟩, 1099511627776, 0, 493487163909, ⟨[], 0, 0⟩, 0, 0, 0, ⟨0, 5,
    224002687322453, [94354093841]⟩⟩ 0 1 2791)) (.out ⟨265, 16, 10, 548, 16, 263, ⟨[[], [(343597383680, 0)]], 1, 1⟩,
    ⟨[[(189562630377, 0), (0, 3970095260732)], [(0, 91294656230), (0, 2500800600)]], 1, 1⟩, 1099511627776, 0,
    713030054405, ⟨[], 0, 0⟩, 0, 0, 0, ⟨0, 5, 149522534956320, [53804075931]⟩⟩ 0 1 2449)))
theorem c9 : checkC job ⟨6, 8, 7, 8, 9, 13⟩ 1 25 lims t9 176 48 8 9 3 64 = true := by decide +kernel

def t10 : CTree :=
  .sx (.sx (.out ⟨248, 26, 8, 324, 16, 144, ⟨[[], [(549755813888, 0)]], 1, 1⟩, ⟨[[(0, 17444729669), (0,
    4371909836993)], [(0, 67218609599), (0, 1953880546)]], 1, 1⟩, 1099511627776, 0, 794756646508, ⟨[], 0, 0⟩, 0, 0,
    0, ⟨0, 5, 85786005373592, [50365841716]⟩⟩ 0 1 7315) (.sx (.out ⟨355, 16, 10, 351, 16, 158, ⟨[[], [(343597383680,
    0)]], 1, 1⟩, ⟨[[(0, 122020638105), (0, 4953391693199)], [(0, 33424462263), (0, 1099462935)]], 1, 1⟩,
    1099511627776, 0, 521504463354, ⟨[], 0, 0⟩, 0, 0, 0, ⟨0, 5, 97841641892774, [24128706252]⟩⟩ 0 1 6482) (.out ⟨385,
    16, 10, 344, 16, 156, ⟨[[], [(343597383680, 0)]], 1, 1⟩, ⟨[[(0, 386545856090), (0, 4995581861570)], [(0,
    31160598217), (0, 1099030721)]], 1, 1⟩, 1099511627776, 0, 491756300059, ⟨[], 0, 0⟩, 0, 0, 0, ⟨0, 5,
    98798660641594, [21966920142]⟩⟩ 0 1 6002))) (.sx (.out ⟨344, 26, 8, 305, 16, 140, ⟨[[], [(549755813888, 0)]], 1,
    1⟩, ⟨[[(0, 131978904349), (0, 4626151169237)], [(0, 51796334251), (0, 1994939561)]], 1, 1⟩, 1099511627776, 0,
    662965162343, ⟨[], 0, 0⟩, 0, 0, 0, ⟨0, 5, 91350253560865, [35301639704]⟩⟩ 0 1 5225) (.sy (.out ⟨392, 26, 8, 540,
    16, 246, ⟨[[], [(549755813888, 0)]], 1, 1⟩, ⟨[[(0, 389192671711), (0, 4222966015048)], [(0, 78461069616), (0,
    1445988264)]], 1, 1⟩, 1099511627776, 0, 281723512151, ⟨[], 0, 0⟩, 0, 0, 0, ⟨0, 6, 166089878205806,
    [54434510902]⟩⟩ 0 1 5710) (.out ⟨392, 26, 8, 491, 16, 234, ⟨[[], [(549755813888, 0)]], 1, 1⟩, ⟨[[(323691277184,
    0), (0, 4096700290106)], [(0, 84741611967), (0, 2058464171)]], 1, 1⟩, 1099511627776, 0, 516044586798, ⟨[], 0, 0⟩,
    0, 0, 0, ⟨0, 6, 157987932927474, [51779168907]⟩⟩ 0 1 2877)))
theorem c10 : checkC job ⟨6, 8, 7, 8, 9, 13⟩ 1 25 lims t10 160 48 4 3 3 64 = true := by decide +kernel

def t11 : CTree :=
  .sx (.sy (.sx (.out ⟨295, 16, 10, 601, 16, 281, ⟨[[], [(343597383680, 0)]], 1, 1⟩, ⟨[[(0, 29470506677), (0,
    4199316495302)], [(0, 79589653189), (0, 1727071876)]], 1, 1⟩, 1099511627776, 0, 402851172495, ⟨[], 0, 0⟩, 0, 0,
    0, ⟨0, 5, 164984079309793, [51640401034]⟩⟩ 0 1 4062) (.out ⟨325, 16, 10, 584, 16, 276, ⟨[[], [(343597383680,
    0)]], 1, 1⟩, ⟨[[(0, 388650984520), (0, 4290801993084)], [(0, 73909672104), (0, 1765028500)]], 1, 1⟩,
    1099511627776, 0, 469840419174, ⟨[], 0, 0⟩, 0, 0, 0, ⟨0, 5, 166685698339977, [46039545056]⟩⟩ 0 1 3393)) (.sy
    (.out ⟨248, 26, 8, 625, 16, 303, ⟨[[], [(549755813888, 0)]], 1, 1⟩, ⟨[[(0, 8420377658), (0, 2435137258145)], [(0,
    187421826169), (0, 2784328099)]], 1, 1⟩, 1099511627776, 0, 780852203951, ⟨[], 0, 0⟩, 0, 0, 0, ⟨0, 5,
    180508052973599, [105978125277]⟩⟩ 0 1 1836) (.sx (.sy (.out ⟨295, 16, 10, 1181, 16, 578, ⟨[[], [(343597383680,
    0)]], 1, 1⟩, ⟨[[(291131918608, 0), (0, 2354144637420)], [(0, 195868272744), (0, 1602387849)]], 1, 1⟩,
    1099511627776, 0, 392127228030, ⟨[], 0, 0⟩, 0, 0, 0, ⟨0, 5, 339362269897012, [106221180775]⟩⟩ 0 1 1267) (.leaf
    ⟨295, 16, 10, 1126, 16, 557, ⟨[[], [(343597383680, 0)]], 3, 4⟩, ⟨[[(0, 275594327261), (0, 2351932727369), (0,
    7856033380), (0, 109615384), (0, 1103645)], [(0, 198798889191), (0, 1815912297), (0, 25560574), (0, 356480), (0,
    4407)], [(35113007, 0), (0, 887544), (0, 23092), (0, 401), (0, 5)], [(0, 34712), (0, 1), (1, 0)]], 3, 4⟩,
    1099511627776, 0, 737113319, ⟨[[(54458872776058, 0), (73061505092, 0), (213036782, 0), (102399, 0), (0, 464)],
    [(42198820941, 0), (63703844, 0), (0, 61718), (0, 286), (0, 2)], [(0, 57444239), (0, 89172), (0, 73)], [(112030,
    0), (220, 0)]], 3, 4⟩, 68719476736, 33197672,
    3640398660863455076032180018684408893728246472327257290955915172851806079976945168197775775378, ⟨0, 5,
    327032498845390, [102361933723, 54217126, 38289]⟩⟩)) (.leaf ⟨325, 16, 10, 763, 16, 381, ⟨[[], [(343597383680,
    0)]], 3, 4⟩, ⟨[[(23683840885, 0), (0, 3386024167046), (0, 25374285604), (0, 710931313), (0, 14662563)], [(0,
    128049027274), (0, 2484175730), (0, 71944107), (0, 2017179), (0, 47481)], [(20083462, 0), (0, 1001771), (0,
    50510), (0, 1473), (0, 24)], [(0, 15624), (282, 0), (28, 0), (2, 0)]], 3, 4⟩, 1099511627776, 0, 488539122,
    ⟨[[(54910021803638, 0), (103040377722, 0), (444158065, 0), (360176, 0), (0, 2294)], [(38401918717, 0), (87985722,
    0), (0, 123944), (0, 670), (0, 7)], [(0, 47831868), (0, 103971), (0, 143)], [(84578, 0), (223, 0)]], 3, 4⟩,
    68719476736, 29145313,
    2070242612703805375868170503866275909403949522985215418131190571833469243873172202615035229558, ⟨0, 5,
    230098735751925, [63554589370, 30555091, 19587]⟩⟩)))) (.sy (.out ⟨296, 26, 8, 460, 16, 221, ⟨[[], [(549755813888,
    0)]], 1, 1⟩, ⟨[[(0, 144647800936), (0, 3644469366780)], [(0, 110178115879), (0, 2965213423)]], 1, 1⟩,
    1099511627776, 0, 760650687106, ⟨[], 0, 0⟩, 0, 0, 0, ⟨0, 5, 138441141019236, [64762834383]⟩⟩ 0 1 2384) (.sy (.sx
    (.leaf ⟨355, 16, 10, 828, 16, 409, ⟨[[], [(343597383680, 0)]], 3, 4⟩, ⟨[[(0, 473323923766), (0, 3569600640471),
    (0, 21150377030), (0, 603617354), (0, 11926280)], [(0, 119206690126), (0, 2041841422), (0, 52941826), (0,
    1419881), (0, 32175)], [(22057860, 0), (0, 521840), (0, 27045), (0, 820), (3, 0)], [(0, 12310), (263, 0), (17,
    0), (2, 0)]], 3, 4⟩, 1099511627776, 0, 334573023, ⟨[[(56929848463222, 0), (105244948949, 0), (388543898, 0),
    (206367, 0), (0, 1957)], [(36417361283, 0), (74464826, 0), (0, 131402), (0, 734), (0, 6)], [(0, 41815276), (0,
    82944), (0, 101)], [(67656, 0), (150, 0)]], 3, 4⟩, 68719476736, 24979684,
    3626642698318975040054097906087557111056963430570564051846506559646481951862617355771979612560, ⟨0, 5,
    253273617304712, [62459752261, 27491088, 16133]⟩⟩) (.leaf ⟨385, 16, 10, 795, 16, 398, ⟨[[], [(343597383680, 0)]],
    3, 4⟩, ⟨[[(390484219260, 0), (0, 3668761277460), (0, 25750894316), (0, 725636227), (0, 14475580)], [(0,
    112169247540), (0, 2075913198), (0, 55935790), (0, 1477289), (0, 27260)], [(18649466, 0), (0, 411031), (0,
    18757), (0, 132), (41, 0)], [(0, 7727), (425, 0), (37, 0), (3, 0)]], 3, 4⟩, 1099511627776, 0, 271022600,
    ⟨[[(56848485469293, 0), (101742382860, 0), (397995368, 0), (300229, 0), (0, 2271)], [(33291610207, 0), (74649048,
    0), (0, 123952), (0, 505), (0, 6)], [(0, 35604271), (0, 71426), (0, 97)], [(52608, 0), (107, 0)]], 3, 4⟩,
    68719476736, 22555653,
    3059228090774575652480846096845248744625407432735290132158487277794060453517679009102733348765, ⟨0, 5,
    252063249585604, [56043809081, 22745052, 12308]⟩⟩)) (.sx (.leaf ⟨355, 16, 10, 724, 16, 367, ⟨[[], [(343597383680,
    0)]], 3, 4⟩, ⟨[[(402495729057, 0), (0, 3499892203630), (0, 31510871070), (0, 882004755), (0, 18686190)], [(0,
    119983990703), (0, 2567187911), (0, 77545285), (0, 2136705), (0, 49031)], [(15961660, 0), (0, 830895), (0,
    35362), (0, 532), (0, 15)], [(0, 8601), (681, 0), (66, 0), (4, 0)]], 3, 4⟩, 1099511627776, 0, 461436036,
    ⟨[[(54875882470967, 0), (99367175693, 0), (459957019, 0), (505710, 0), (0, 2781)], [(34789889670, 0), (88321743,
    0), (0, 123976), (0, 386), (0, 7)], [(0, 40109093), (0, 87297), (0, 144)], [(64567, 0), (159, 0)]], 3, 4⟩,
    68719476736, 25642977,
    2152762323393823572939646766614268717061036794368966419118327943872882165418850389449008039238, ⟨0, 5,
    227265079586380, [56045792371, 24668042, 14477]⟩⟩) (.leaf ⟨385, 16, 10, 685, 16, 352, ⟨[[], [(343597383680, 0)]],
    3, 4⟩, ⟨[[(0, 181588317970), (0, 3599884004599), (0, 37611157375), (0, 1044173220), (0, 22624593)], [(0,
    112316433878), (0, 2592821359), (0, 78787507), (0, 2046213), (0, 51897)], [(13744805, 0), (0, 539353), (0,
    10284), (542, 0), (0, 45)], [(0, 2687), (1146, 0), (100, 0), (3, 0)]], 3, 4⟩, 1099511627776, 0, 532129751,
    ⟨[[(54928508047883, 0), (97116821997, 0), (478147605, 0), (690343, 0), (0, 3364)], [(31713930735, 0), (89641065,
    0), (0, 136125), (0, 121), (0, 7)], [(0, 34184748), (0, 75824), (0, 145)], [(50503, 0), (112, 0)]], 3, 4⟩,
    68719476736, 23839399,
    2429336912291880407544085102366936105563108213066180057706832267835119656282274458067372910761, ⟨0, 5,
    222930311191288, [49566383911, 20116227, 10885]⟩⟩))))
theorem c11 : checkC job ⟨6, 8, 7, 8, 9, 13⟩ 1 25 lims t11 272 48 8 9 3 64 = true := by decide +kernel

def t12 : CTree :=
  .sy (.sx (.sy (.out ⟨344, 26, 8, 716, 16, 347, ⟨[[], [(549755813888, 0)]], 1, 1⟩, ⟨[[(0, 129153633445), (0,
    3016368388924)], [(0, 152859847526), (0, 2135591754)]], 1, 1⟩, 1099511627776, 0, 474934617077, ⟨[], 0, 0⟩, 0, 0,
    0, ⟨0, 5, 226418128468716, [87497635552]⟩⟩ 0 1 1857) (.sx (.leaf ⟨415, 16, 10, 863, 16, 426, ⟨[[],
    [(343597383680, 0)]], 3, 4⟩, ⟨[[(0, 364727166604), (0, 3828446600837), (0, 20149062203), (0, 576821457), (0,
    11459625)], [(0, 104615374521), (0, 1689040115), (0, 39584713), (0, 999953), (0, 23327)], [(19490655, 0), (0,
    169315), (0, 8939), (0, 252), (14, 0)], [(0, 7108), (271, 0), (15, 0), (1, 0)]], 3, 4⟩, 1099511627776, 0,
    208874333, ⟨[[(59038944264871, 0), (105484589710, 0), (350849203, 0), (140191, 0), (0, 1973)], [(32066930298, 0),
    (63059921, 0), (0, 130774), (0, 616), (0, 5)], [(0, 32064134), (0, 60358), (0, 46), (1, 0)], [(43484, 0), (80,
    0)]], 3, 4⟩, 68719476736, 20514902,
    3714113938255358550731182573598330440785183146675161055690518205970624019489945433066870589674, ⟨0, 5,
    275341703765670, [55650209647, 20952639, 10518]⟩⟩) (.leaf ⟨445, 16, 10, 836, 16, 417, ⟨[[], [(343597383680, 0)]],
    3, 4⟩, ⟨[[(0, 377619382209), (0, 3907564822752), (0, 23508834402), (0, 659717844), (0, 13201758)], [(0,
    98912136334), (0, 1677254041), (0, 39940400), (0, 988400), (0, 17547)], [(17416377, 0), (0, 80007), (0, 3279),
    (180, 0), (43, 0)], [(0, 4678), (332, 0), (23, 0), (2, 0)]], 3, 4⟩, 1099511627776, 0, 174891200,
    ⟨[[(59039655304259, 0), (103328433079, 0), (357549200, 0), (209615, 0), (0, 2206)], [(29708555248, 0), (63226436,
    0), (0, 124701), (0, 435), (0, 5)], [(0, 28035915), (0, 54580), (0, 38), (1, 0)], [(35161, 0), (60, 0)]], 3, 4⟩,
    68719476736, 19531622,
    3755448738785894921377853644084033089691246877763014581131987819237998936726142077603992644129, ⟨0, 5,
    274573800111240, [50802062723, 17837803, 8351]⟩⟩))) (.sy (.sy (.out ⟨392, 26, 8, 1019, 16, 500, ⟨[[],
    [(549755813888, 0)]], 1, 1⟩, ⟨[[(327269982468, 0), (0, 2291458378639)], [(0, 200072390921), (0, 1455763611)]], 1,
    1⟩, 1099511627776, 0, 416507015136, ⟨[], 0, 0⟩, 0, 0, 0, ⟨0, 6, 337581053263834, [110639249801]⟩⟩ 0 1 1114)
    (.leaf ⟨392, 25, 8, 974, 16, 484, ⟨[[], [(549755813888, 0)]], 3, 4⟩, ⟨[[(454049012706, 0), (0, 2280425299799),
    (0, 5864692502), (0, 80823437), (0, 805381)], [(0, 202658091295), (0, 1592684537), (0, 16834290), (0, 188667),
    (0, 2139)], [(72949393, 0), (103023, 0), (2560, 0), (91, 0), (6, 0)], [(0, 32917), (1104, 0), (32, 0), (1, 0)]],
    3, 4⟩, 1099511627776, 0, 1307340910, ⟨[[(60662479199530, 0), (93311772636, 0), (262455380, 0), (103033, 0), (0,
    1352)], [(34456757920, 0), (62293309, 0), (0, 120313), (0, 319), (0, 3)], [(0, 37537242), (0, 63586), (23, 0),
    (1, 0)], [(53156, 0), (87, 0), (1, 0)]], 3, 4⟩, 68719476736, 1322611179,
    1902894019189255688390493888295827585757698568784264837986549131855689630047269974404414184891, ⟨0, 6,
    326778459559391, [107098793807, 68302802, 58081]⟩⟩)) (.sx (.leaf ⟨475, 16, 10, 811, 16, 409, ⟨[[],
    [(343597383680, 0)]], 3, 4⟩, ⟨[[(323437610601, 0), (0, 3990946399577), (0, 26826154696), (0, 736759714), (0,
    14099521)], [(0, 93844265022), (0, 1650484516), (0, 39082694), (0, 879604), (0, 5575)], [(16026988, 0), (25672,
    0), (4599, 0), (791, 0), (80, 0)], [(0, 2804), (399, 0), (32, 0), (2, 0)]], 3, 4⟩, 1099511627776, 0, 144807822,
    ⟨[[(58974955217492, 0), (100701083237, 0), (360937846, 0), (297368, 0), (0, 2391)], [(27556335940, 0), (63546603,
    0), (0, 122408), (0, 247), (0, 4)], [(0, 24691335), (0, 50147), (0, 35), (1, 0)], [(28949, 0), (47, 0)]], 3, 4⟩,
    68719476736, 18502265,
    2937531493689552983388460758178198235828806353610331876461819935043701826241237107835217216733, ⟨0, 6,
    273935291393998, [46680446426, 15355410, 6735]⟩⟩) (.leaf ⟨505, 16, 10, 786, 16, 400, ⟨[[], [(343597383680, 0)]],
    3, 4⟩, ⟨[[(0, 486181804844), (0, 4057492891003), (0, 29834427833), (0, 793749789), (0, 13475571)], [(0,
    88831886643), (0, 1597869644), (0, 36422086), (0, 640195), (13210, 0)], [(15094996, 0), (148231, 0), (14669, 0),
    (1541, 0), (116, 0)], [(0, 1329), (465, 0), (39, 0), (3, 0)]], 3, 4⟩, 1099511627776, 0, 120408318,
    ⟨[[(59048915248263, 0), (99578908228, 0), (366000975, 0), (387107, 0), (0, 2594)], [(25698563749, 0), (63850327,
    0), (0, 126138), (0, 105), (0, 3)], [(0, 21953347), (0, 46874), (0, 32), (1, 0)], [(24309, 0), (40, 0)]], 3, 4⟩,
    68719476736, 18688402,
    2353456218769507678793779443052926300904440263038167506949134358923083677124406055420980728275, ⟨0, 6,
    272157250503530, [42941174180, 13286254, 5481]⟩⟩)))) (.sx (.sy (.sx (.leaf ⟨415, 16, 10, 764, 16, 387, ⟨[[],
    [(343597383680, 0)]], 3, 4⟩, ⟨[[(0, 3680636770), (0, 3764417207159), (0, 30392350861), (0, 841775255), (0,
    16120623)], [(0, 105762397865), (0, 2082010544), (0, 56703304), (0, 1367912), (0, 14737)], [(16473867, 0), (0,
    251368), (0, 4755), (902, 0), (82, 0)], [(0, 4111), (624, 0), (58, 0), (4, 0)]], 3, 4⟩, 1099511627776, 0,
    232490816, ⟨[[(56885448509003, 0), (99430245462, 0), (407197847, 0), (406928, 0), (0, 2604)], [(30621223569, 0),
    (74988139, 0), (0, 125501), (0, 302), (0, 6)], [(0, 30763637), (0, 63401), (0, 93)], [(41848, 0), (76, 0)]], 3,
    4⟩, 68719476736, 21654277,
    2996894771949692905531148255185014296976087522778674111919578214835966701171746275593541590841, ⟨0, 5,
    250134364688531, [50555472144, 19034440, 9555]⟩⟩) (.leaf ⟨445, 16, 10, 731, 16, 375, ⟨[[], [(343597383680, 0)]],
    3, 4⟩, ⟨[[(538854190923, 0), (0, 3843026258925), (0, 34712019530), (0, 931125691), (0, 16156609)], [(0,
    99501128871), (0, 2045403683), (0, 54056301), (0, 1039362), (3962, 0)], [(15233512, 0), (0, 36418), (14906, 0),
    (2131, 0), (106, 0)], [(0, 1148), (836, 0), (78, 0), (5, 0)]], 3, 4⟩, 1099511627776, 0, 211586442,
    ⟨[[(56837921601871, 0), (97001658279, 0), (415756561, 0), (551073, 0), (0, 2946)], [(28183669915, 0), (76184218,
    0), (0, 133550), (0, 97), (0, 5)], [(0, 26801754), (0, 57674), (0, 91)], [(33896, 0), (56, 0)]], 3, 4⟩,
    68719476736, 20878096,
    3668132214387899705898020679158891360930688962680971706992989404722943097072460061290517463840, ⟨0, 5,
    246918884992122, [45685308204, 16041190, 7510]⟩⟩)) (.sx (.leaf ⟨415, 16, 10, 648, 16, 338, ⟨[[], [(343597383680,
    0)]], 3, 4⟩, ⟨[[(319060016843, 0), (0, 3699407842595), (0, 43378556005), (0, 1183760288), (0, 27087575)], [(0,
    105340003741), (0, 2554166752), (0, 74669069), (0, 1783294), (0, 63860)], [(13178525, 0), (0, 130414), (21146,
    0), (1304, 0), (0, 102)], [(2378, 0), (1582, 0), (117, 0), (2, 0)]], 3, 4⟩, 1099511627776, 0, 743323971,
    ⟨[[(54885275725922, 0), (94079614819, 0), (488961438, 0), (934274, 0), (0, 3920)], [(28907996992, 0), (91942805,
    0), (0, 157048), (149, 0), (0, 6)], [(0, 29414035), (0, 67401), (0, 139)], [(40258, 0), (78, 0)]], 3, 4⟩,
    68719476736, 23817268,
    2717268669583371427968367356163262432589126494600319653122058554348464432795299229737148120703, ⟨0, 5,
    218463605335203, [44154391692, 16624394, 8346]⟩⟩) (.leaf ⟨445, 16, 10, 615, 16, 325, ⟨[[], [(343597383680, 0)]],
    3, 4⟩, ⟨[[(0, 416444499956), (0, 3792612776661), (0, 48314726581), (0, 1289711964), (0, 32820323)], [(0,
    98751577721), (0, 2434303039), (0, 64743575), (0, 1424011), (0, 77325)], [(13958569, 0), (367723, 0), (53223, 0),
    (1818, 0), (0, 14)], [(6536, 0), (1875, 0), (114, 0), (3, 0), (1, 0)]], 3, 4⟩, 1099511627776, 0, 1271628481,
    ⟨[[(54947717780378, 0), (92408139926, 0), (496224593, 0), (1204913, 0), (0, 4446)], [(26493468424, 0), (94532182,
    0), (0, 184175), (325, 0), (0, 4)], [(0, 25611659), (0, 61909), (0, 117), (0, 1)], [(32800, 0), (54, 0)]], 3, 4⟩,
    68719476736, 25832664,
    3082696886374300294026575449006174195429905902741642721560353230777073020180399761039088005554, ⟨0, 5,
    213996366993172, [39593933777, 13902364, 6509]⟩⟩))) (.sy (.sx (.leaf ⟨475, 16, 10, 704, 16, 365, ⟨[[],
    [(343597383680, 0)]], 3, 4⟩, ⟨[[(0, 383019952579), (0, 3931224342311), (0, 38632624491), (0, 980504773), (0,
    14424042)], [(0, 94008901754), (0, 1973079249), (0, 47575323), (0, 496636), (22631, 0)], [(14859412, 0), (231140,
    0), (38625, 0), (3245, 0), (82, 0)], [(1282, 0), (1032, 0), (89, 0), (3, 0)]], 3, 4⟩, 1099511627776, 0,
    256219850, ⟨[[(56919062870266, 0), (95537885720, 0), (420006530, 0), (694871, 0), (0, 3228)], [(26091607764, 0),
    (77046456, 0), (0, 145826), (47, 0), (0, 4)], [(0, 23605609), (0, 53488), (0, 82)], [(28018, 0), (42, 0)]], 3,
    4⟩, 68719476736, 21204698,
    3516099262647983187896816942289925766326430620665203552708444460614074345051693904040823651553, ⟨0, 6,
    244465480094888, [41658589109, 13703483, 6010]⟩⟩) (.leaf ⟨505, 16, 10, 678, 16, 356, ⟨[[], [(343597383680, 0)]],
    3, 4⟩, ⟨[[(460220575522, 0), (0, 4016028283198), (0, 41709859741), (0, 971219755), (0, 11433236)], [(0,
    88854630981), (0, 1851739099), (0, 36747612), (193258, 0), (29830, 0)], [(15145205, 0), (538920, 0), (62718, 0),
    (3751, 0), (0, 13)], [(3207, 0), (1155, 0), (83, 0)]], 3, 4⟩, 1099511627776, 0, 459992363, ⟨[[(56846921719669,
    0), (92902624048, 0), (415782227, 0), (872321, 0), (0, 3368)], [(24079899030, 0), (78564153, 0), (0, 160659),
    (147, 0), (0, 2)], [(0, 20844951), (0, 50082), (0, 63)], [(23470, 0), (34, 0)]], 3, 4⟩, 68719476736, 22181619,
    3142013523757341939768116392135364457690873512102274659498196424745778689793948315241254658648, ⟨0, 6,
    242219952948141, [38217645020, 11824766, 4878]⟩⟩)) (.sx (.leaf ⟨475, 16, 10, 586, 16, 314, ⟨[[], [(343597383680,
    0)]], 3, 4⟩, ⟨[[(0, 431895902791), (0, 3885107490558), (0, 52113007519), (0, 1357626096), (0, 37533170)], [(0,
    92613124658), (0, 2231772320), (0, 49619794), (0, 877477), (0, 23596)], [(15794408, 0), (903294, 0), (83675, 0),
    (4071, 0), (722, 0)], [(9527, 0), (1960, 0), (119, 0), (16, 0), (5, 0)]], 3, 4⟩, 1099511627776, 0, 3134292365,
    ⟨[[(54948380201904, 0), (90202846796, 0), (490488506, 0), (1509402, 0), (0, 4751)], [(24255931064, 0), (97545257,
    0), (0, 212714), (385, 0), (0, 1)], [(0, 22425792), (0, 58295), (0, 68), (0, 2)], [(27163, 0), (38, 0)]], 3, 4⟩,
    68719476736, 28699866,
    4058038443997915771671281347491394499772368726080836877882600043819374128266631166895597419002, ⟨0, 6,
    210307289725465, [35837799946, 11788750, 5171]⟩⟩) (.sy (.leaf ⟨505, 16, 10, 960, 16, 517, ⟨[[], [(343597383680,
    0)]], 3, 4⟩, ⟨[[(133513830650, 0), (0, 3235573311915), (0, 20656173765), (0, 245872586), (0, 3193960)], [(0,
    142189042156), (0, 1574841637), (0, 12522491), (0, 10660), (228, 0)], [(27813883, 0), (946646, 0), (38367, 0),
    (780, 0), (73, 0)], [(14462, 0), (1318, 0), (29, 0), (2, 0)]], 3, 4⟩, 1099511627776, 0, 181994003,
    ⟨[[(55386722513120, 0), (54824074965, 0), (173514926, 0), (352722, 0), (0, 622)], [(22700786184, 0), (57953830,
    0), (0, 80570), (62, 0)], [(0, 20010835), (0, 33442), (0, 8)], [(22963, 0), (18, 0)]], 3, 4⟩, 68719476736,
    13499532, 2777301571259602910908779415718133369679117579183315966498282676027258828342735656213222590730, ⟨0, 6,
    351763246275812, [55501467628, 17172484, 7084]⟩⟩) (.leaf ⟨505, 16, 10, 871, 16, 478, ⟨[[], [(343597383680, 0)]],
    3, 4⟩, ⟨[[(0, 333686071874), (0, 3247714784130), (0, 23765755521), (0, 274353061), (1797786, 0)], [(0,
    140606335666), (0, 1585089124), (0, 7514858), (876162, 0), (106919, 0)], [(32581677, 0), (1520702, 0), (93370,
    0), (8044, 0), (631, 0)], [(22956, 0), (2383, 0), (237, 0), (25, 0), (1, 0)]], 3, 4⟩, 1099511627776, 0,
    729324642, ⟨[[(54457161950055, 0), (52948372203, 0), (179453146, 0), (498248, 0), (0, 716)], [(21635124832, 0),
    (65866708, 0), (0, 97529), (47, 0), (1, 0)], [(0, 19410819), (0, 36391), (25, 0), (0, 1)], [(22688, 0), (14,
    0)]], 3, 4⟩, 68719476736, 13563904,
    4631041056215999286126367598321029461904752099565391064035729706517358244039864472138288286584, ⟨0, 6,
    325227914351718, [51314703145, 15877074, 6550]⟩⟩)))))
theorem c12 : checkC job ⟨6, 8, 7, 8, 9, 13⟩ 1 25 lims t12 368 48 8 9 3 64 = true := by decide +kernel

def t13 : CTree :=
  .sx (.sx (.sx (.sy (.sx (.out ⟨339, 16, 81, 1076, 16, 448, ⟨[[(206158430208, 0)], [(347892350976, 0)]], 1, 1⟩,
    ⟨[[(413258571012, 0), (0, 4258007341320)], [(0, 80293191274), (0, 340083126)]], 1, 1⟩, 1099511627776, 0,
    417705904341, ⟨[], 0, 0⟩, 0, 0, 0, ⟨0, 2, 111303243735982, [72500083929]⟩⟩ 0 1 11755) (.out ⟨370, 16, 81, 1082,
    16, 453, ⟨[[(0, 481036337152)], [(347892350976, 0)]], 1, 1⟩, ⟨[[(0, 474594990214), (0, 4338838906403)], [(0,
    75219591401), (0, 350089280)]], 1, 1⟩, 1099511627776, 0, 386532826849, ⟨[], 0, 0⟩, 0, 0, 0, ⟨0, 2,
    119285667688246, [67283819941]⟩⟩ 0 1 11367)) (.sx (.out ⟨339, 16, 81, 1089, 16, 463, ⟨[[(206158430208, 0)],
    [(347892350976, 0)]], 1, 1⟩, ⟨[[(44575127120, 0), (0, 4178427502982)], [(0, 85395607036), (0, 459806697)]], 1,
    1⟩, 1099511627776, 0, 355707428688, ⟨[], 0, 0⟩, 0, 0, 0, ⟨0, 2, 115029914843214, [74927542096]⟩⟩ 0 1 10300) (.out
    ⟨370, 16, 81, 1091, 16, 467, ⟨[[(0, 481036337152)], [(347892350976, 0)]], 1, 1⟩, ⟨[[(222907361516, 0), (0,
    4259635983440)], [(0, 80033424819), (0, 476067528)]], 1, 1⟩, 1099511627776, 0, 318347641378, ⟨[], 0, 0⟩, 0, 0, 0,
    ⟨0, 2, 122972200464484, [69363231594]⟩⟩ 0 1 9836))) (.out ⟨205, 16, 40, 543, 16, 232, ⟨[[], [(343597383680, 0)]],
    1, 1⟩, ⟨[[(73062613891, 0), (0, 4388733834861)], [(0, 70755750653), (0, 848235335)]], 1, 1⟩, 1099511627776, 0,
    762236228902, ⟨[], 0, 0⟩, 0, 0, 0, ⟨0, 2, 65770328062510, [61353511792]⟩⟩ 0 1 9962)) (.sy (.sx (.out ⟨235, 16,
    40, 918, 16, 392, ⟨[[], [(343597383680, 0)]], 1, 1⟩, ⟨[[(179933803180, 0), (0, 3859666354816)], [(0,
    104518242777), (0, 645686636)]], 1, 1⟩, 1099511627776, 0, 488268868080, ⟨[], 0, 0⟩, 0, 0, 0, ⟨0, 3,
    120417005012227, [90432285539]⟩⟩ 0 1 10001) (.out ⟨265, 16, 40, 926, 16, 399, ⟨[[], [(343597383680, 0)]], 1, 1⟩,
    ⟨[[(0, 291760113025), (0, 3992856016046)], [(0, 96178424691), (0, 681857656)]], 1, 1⟩, 1099511627776, 0,
    411649176191, ⟨[], 0, 0⟩, 0, 0, 0, ⟨0, 3, 130883632476004, [81626715957]⟩⟩ 0 1 9386)) (.sx (.out ⟨235, 16, 40,
    907, 16, 396, ⟨[[], [(343597383680, 0)]], 1, 1⟩, ⟨[[(0, 343649329844), (0, 3754091251557)], [(0, 110148436867),
    (0, 885132691)]], 1, 1⟩, 1099511627776, 0, 418290345574, ⟨[], 0, 0⟩, 0, 0, 0, ⟨0, 3, 121645749961331,
    [91355063963]⟩⟩ 0 1 8497) (.out ⟨265, 16, 40, 909, 16, 401, ⟨[[], [(343597383680, 0)]], 1, 1⟩, ⟨[[(0,
    160710753630), (0, 3889841559871)], [(0, 101493850826), (0, 944743937)]], 1, 1⟩, 1099511627776, 0, 336785588666,
    ⟨[], 0, 0⟩, 0, 0, 0, ⟨0, 3, 131539690784155, [82035872428]⟩⟩ 0 1 7807)))) (.sx (.out ⟨155, 16, 20, 455, 16, 201,
    ⟨[[], [(343597383680, 0)]], 1, 1⟩, ⟨[[(0, 202208295668), (0, 4069369836471)], [(0, 87668577788), (0,
    1716228190)]], 1, 1⟩, 1099511627776, 0, 708772965410, ⟨[], 0, 0⟩, 0, 0, 0, ⟨0, 3, 71402949277534, [70302320728]⟩⟩
    0 1 7715) (.sy (.out ⟨185, 16, 20, 749, 16, 332, ⟨[[], [(343597383680, 0)]], 1, 1⟩, ⟨[[(1133072271, 0), (0,
    3525915026668)], [(0, 122838466232), (0, 1291824628)]], 1, 1⟩, 1099511627776, 0, 526521260194, ⟨[], 0, 0⟩, 0, 0,
    0, ⟨0, 3, 128129725303724, [97290773825]⟩⟩ 0 1 7491) (.out ⟨185, 16, 20, 710, 16, 323, ⟨[[], [(343597383680,
    0)]], 1, 1⟩, ⟨[[(80716499838, 0), (0, 3413950959386)], [(0, 128621939203), (0, 1829644278)]], 1, 1⟩,
    1099511627776, 0, 546366846388, ⟨[], 0, 0⟩, 0, 0, 0, ⟨0, 3, 124656329135852, [94653373330]⟩⟩ 0 1 5798)))
theorem c13 : checkC job ⟨6, 8, 7, 8, 9, 13⟩ 1 25 lims t13 112 48 16 15 3 64 = true := by decide +kernel

end PyX.Kron.S2c
