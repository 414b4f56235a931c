import Verif.Lemmas.S2cJob

/-!
# Temperature from pressure and entropy in subregion 2c, part F of the certificate
-/

namespace PyX.Kron.S2c

set_option Elab.async false

def t74 : CTree :=
  .sx (.sx (.sy (.sx (.leaf ⟨835, 16, 82, 1888, 16, 974, ⟨[[(412316860416, 0)], [(352187318272, 0)]], 3, 4⟩,
    ⟨[[(438936306456, 0), (0, 2431667619819), (0, 15659210072), (0, 257492858), (0, 6227396)], [(0, 189689794461),
    (0, 2293503714), (0, 49020573), (0, 1445130), (0, 47188)], [(0, 43671011), (0, 2730913), (0, 118893), (0, 5089),
    (0, 189)], [(0, 47135), (0, 4046), (0, 261), (0, 13), (0, 1)]], 3, 4⟩, 1099511627776, 0, 563464641,
    ⟨[[(40629741529626, 0), (19596219556, 0), (64733650, 0), (34845, 0), (0, 16)], [(10583046047, 0), (13021667, 0),
    (0, 322)], [(0, 4324570), (0, 9891)], [(2398, 0), (12, 0)]], 3, 4⟩, 68719476736, 204447,
    2262205732224960866724669559871112357136641985761628358374295232812495951411166425363320892052, ⟨0, 3,
    392210839511585, [64789801669, 12421358, 3175]⟩⟩) (.leaf ⟨866, 16, 82, 1725, 16, 898, ⟨[[(137438953472, 0)],
    [(352187318272, 0)]], 3, 4⟩, ⟨[[(443920018248, 0), (0, 2472008356541), (0, 20044800099), (0, 421738792), (0,
    12045998)], [(0, 184001149502), (0, 2726233658), (0, 74874152), (0, 2675588), (0, 94455)], [(0, 55762888), (0,
    4011554), (0, 212080), (0, 9982), (0, 383)], [(0, 66622), (0, 7046), (0, 505), (0, 26), (0, 1)]], 3, 4⟩,
    1099511627776, 0, 999449046, ⟨[[(40632261664165, 0), (19327678598, 0), (74016062, 0), (45930, 0), (0, 23)],
    [(10109985129, 0), (13507819, 0), (0, 444), (1, 0)], [(0, 3957468), (0, 9581), (0, 1)], [(2087, 0), (11, 0)]], 3,
    4⟩, 68719476736, 226542,
    4107641748306587288513361220077424108717592496560838292387089533237903342758723720820958600197, ⟨0, 3,
    367238592771601, [57613588991, 10653400, 2627]⟩⟩)) (.sx (.sy (.leaf ⟨835, 16, 82, 2291, 16, 1188,
    ⟨[[(412316860416, 0)], [(352187318272, 0)]], 3, 4⟩, ⟨[[(0, 237056145621), (0, 1580080078562), (0, 6120730489),
    (0, 62837336), (0, 878688)], [(0, 245353883158), (0, 1733791565), (0, 23104247), (0, 403978), (0, 6975)], [(0,
    71866674), (0, 2556946), (0, 66128), (0, 1521), (0, 29)], [(0, 87910), (0, 4526), (0, 158), (0, 4)]], 3, 4⟩,
    1099511627776, 0, 898064699, ⟨[[(40445927121007, 0), (15045955932, 0), (42825632, 0), (19553, 0), (0, 7)],
    [(10456854636, 0), (10681162, 0), (0, 221)], [(0, 4228783), (0, 8102)], [(2279, 0), (10, 0)]], 3, 4⟩,
    68719476736, 169478,
    2873445044697399739461467343818981156043750215812702732379579643910076190994921329373733472270, ⟨0, 3,
    478384473654787, [79024932631, 15150486, 3873]⟩⟩) (.leaf ⟨835, 16, 82, 2167, 16, 1128, ⟨[[(412316860416, 0)],
    [(352187318272, 0)]], 3, 4⟩, ⟨[[(0, 331863078144), (0, 1577263864368), (0, 7093734207), (0, 84527541), (0,
    1268665)], [(0, 243721626362), (0, 1957312453), (0, 30507395), (0, 583232), (0, 10279)], [(0, 85414679), (0,
    3363501), (0, 95612), (0, 2264), (0, 42)], [(0, 115598), (0, 6587), (0, 238), (0, 6)]], 3, 4⟩, 1099511627776, 0,
    1313458701, ⟨[[(40317768920450, 0), (15063132780, 0), (46930690, 0), (23143, 0), (0, 9)], [(10363547744, 0),
    (11253489, 0), (0, 260), (1, 0)], [(0, 4158043), (0, 8527)], [(2192, 0), (11, 0)]], 3, 4⟩, 68719476736, 171661,
    4617590173939371968208190133283703805820948695633717835380524206111444375051389358070497933550, ⟨0, 3,
    454223641652020, [75033774417, 14385310, 3677]⟩⟩)) (.sy (.sx (.leaf ⟨1727, 16, 165, 3329, 16, 1739,
    ⟨[[(377957122048, 0)], [(354334801920, 0)]], 3, 4⟩, ⟨[[(218340810582, 0), (0, 2517882964228), (0, 11996621314),
    (0, 148678056), (0, 2287627)], [(0, 188284679817), (0, 1599911861), (0, 26075299), (0, 512562), (0, 9206)], [(0,
    34715611), (0, 1402362), (0, 41040), (0, 992), (0, 19)], [(0, 23511), (0, 1385), (0, 51), (0, 1)]], 3, 4⟩,
    1099511627776, 0, 134115289, ⟨[[(40442224435915, 0), (9474642307, 0), (19518253, 0), (6399, 0), (0, 2)],
    [(5014622694, 0), (3506431, 0), (0, 62)], [(0, 975003), (0, 1255)], [(251, 0), (1, 0)]], 3, 4⟩, 68719476736,
    58785, 3145361708576593984602648382687143906298423576000674402916533142525400598132613263016673435107, ⟨0, 3,
    708477302211575, [56284663372, 5250435, 653]⟩⟩) (.sy (.leaf ⟨1758, 16, 165, 4189, 16, 2197, ⟨[[(309237645312,
    0)], [(354334801920, 0)]], 3, 4⟩, ⟨[[(481205324869, 0), (0, 1669112268674), (0, 4432682583), (0, 29873563), (0,
    238785)], [(0, 243670066881), (0, 1143690146), (0, 10231482), (0, 105458), (0, 964)], [(0, 50313545), (0,
    1082439), (0, 16676), (0, 206), (0, 2)], [(0, 35785), (0, 1115), (0, 21)]], 3, 4⟩, 1099511627776, 0, 174559262,
    ⟨[[(40473064946876, 0), (7177476650, 0), (12066708, 0), (3220, 0), (0, 1)], [(4909372529, 0), (2716926, 0), (0,
    44)], [(0, 936169), (0, 940)], [(236, 0), (1, 0)]], 3, 4⟩, 68719476736, 70775,
    3845089654139830152039326637471338598047441032807788463390485229352730600797590022296614739043, ⟨0, 3,
    901834783190503, [69857168087, 6401867, 782]⟩⟩) (.sx (.leaf ⟨3501, 16, 330, 6361, 16, 3339, ⟨[[(103079215104,
    0)], [(354334801920, 0)]], 3, 4⟩, ⟨[[(343839502505, 0), (0, 2577265359845), (0, 7205474424), (0, 50556619), (0,
    409023)], [(0, 188637359115), (0, 925839834), (0, 8661793), (0, 90830), (0, 830)], [(0, 20688574), (0, 459812),
    (0, 7222), (0, 89), (0, 1)], [(0, 7640), (0, 243), (0, 5)]], 3, 4⟩, 1099511627776, 0, 20687263,
    ⟨[[(40410723370473, 0), (4652433867, 0), (5209309, 0), (920, 0)], [(2456838328, 0), (898620, 0), (0, 10)], [(0,
    234521), (0, 157)], [(29, 0)]], 3, 4⟩, 68719476736, 17969,
    4681521117481226950731072127496422697672115424845704129790630216485462230478414792454586820370, ⟨0, 3,
    1368054582769796, [53318993517, 2453930, 151]⟩⟩) (.skip)))) (.sx (.sy (.sx (.leaf ⟨3439, 16, 330, 6531, 16, 3418,
    ⟨[[(240518168576, 0)], [(354334801920, 0)]], 3, 4⟩, ⟨[[(204097366203, 0), (0, 2547243706606), (0, 6645324331),
    (0, 44470751), (0, 351627)], [(0, 190752819037), (0, 876776665), (0, 7772117), (0, 79279), (0, 715)], [(0,
    19561071), (0, 419179), (0, 6390), (0, 78), (0, 1)], [(0, 7067), (0, 217), (0, 4)]], 3, 4⟩, 1099511627776, 0,
    18548986, ⟨[[(40346941027385, 0), (4684754419, 0), (5021713, 0), (848, 0)], [(2503755754, 0), (897014, 0), (0,
    8)], [(0, 243203), (0, 162)], [(31, 0)]], 3, 4⟩, 68719476736, 14838,
    3845028398348915138521045422799578204525246349039518987388838864013198765155538967489412208486, ⟨0, 3,
    1389849285569076, [55562467272, 2603189, 163]⟩⟩) (.sy (.leaf ⟨3470, 16, 330, 8330, 16, 4368, ⟨[[(171798691840,
    0)], [(354334801920, 0)]], 3, 4⟩, ⟨[[(0, 505963367730), (0, 1669927727667), (0, 2307308706), (0, 8043108), (0,
    32354)], [(0, 247011014310), (0, 598668418), (0, 2779289), (0, 14487), (0, 66)], [(0, 26882659), (0, 297369), (0,
    2321), (0, 14)], [(0, 9958), (0, 157), (0, 1)]], 3, 4⟩, 1099511627776, 0, 24205227, ⟨[[(40365291125794, 0),
    (3588029178, 0), (3054885, 0), (409, 0)], [(2477499380, 0), (694356, 0), (0, 5)], [(0, 238341), (0, 123)], [(30,
    0)]], 3, 4⟩, 68719476736, 9019,
    4255745531798632422606101464536702572213326652493539027055940377287742307604501461460396925738, ⟨0, 3,
    1782930488363965, [70372481169, 3267667, 202]⟩⟩) (.skip))) (.skip)) (.skip))))) (.sy (.sx (.sy (.leaf ⟨897, 16,
    82, 2121, 16, 1112, ⟨[[(0, 137438953472)], [(352187318272, 0)]], 3, 4⟩, ⟨[[(0, 381713203378), (0, 1668009264185),
    (0, 8191296575), (0, 102248362), (0, 1601361)], [(0, 237214727055), (0, 2091126453), (0, 34498010), (0, 689262),
    (0, 12711)], [(0, 88199303), (0, 3572781), (0, 106321), (0, 2639), (0, 52)], [(0, 115163), (0, 6928), (0, 263),
    (0, 7)]], 3, 4⟩, 1099511627776, 0, 1326110167, ⟨[[(40712455904120, 0), (14500250326, 0), (47150312, 0), (24835,
    0), (0, 10)], [(9712823524, 0), (10463236, 0), (0, 361), (1, 0)], [(0, 3663576), (0, 6954)], [(1860, 0), (8,
    0)]], 3, 4⟩, 68719476736, 182986,
    3385271570655693154241470811527526079963207705712413409267210330610590998736739451469644653002, ⟨0, 3,
    461484432193380, [68897273636, 12303085, 2929]⟩⟩) (.sx (.leaf ⟨1789, 16, 165, 3164, 16, 1662, ⟨[[(240518168576,
    0)], [(354334801920, 0)]], 3, 4⟩, ⟨[[(0, 432643808000), (0, 2570021612241), (0, 13933035508), (0, 189818166), (0,
    3066619)], [(0, 183813743978), (0, 1764352620), (0, 31984371), (0, 666595), (0, 12322)], [(0, 38432748), (0,
    1666607), (0, 51947), (0, 1298), (0, 25)], [(0, 27137), (0, 1714), (0, 66), (0, 2)]], 3, 4⟩, 1099511627776, 0,
    164536168, ⟨[[(40577646493494, 0), (9391146971, 0), (20973020, 0), (7485, 0), (0, 2)], [(4834701334, 0),
    (3517225, 0), (0, 83)], [(0, 908669), (0, 1179)], [(227, 0), (1, 0)]], 3, 4⟩, 68719476736, 56674,
    4578376571515834521764466017693515169007790093757437053666674310333127785374875686323085095206, ⟨0, 3,
    687254591930059, [51932214555, 4676893, 562]⟩⟩) (.sy (.leaf ⟨1820, 16, 165, 3998, 16, 2109, ⟨[[(171798691840,
    0)], [(354334801920, 0)]], 3, 4⟩, ⟨[[(430285227586, 0), (0, 1716594832694), (0, 5203200016), (0, 38360618), (0,
    320498)], [(0, 239718211144), (0, 1276695513), (0, 12657699), (0, 137624), (0, 1291)], [(0, 56189048), (0,
    1299815), (0, 21225), (0, 270), (0, 3)], [(0, 41841), (0, 1390), (0, 27)]], 3, 4⟩, 1099511627776, 0, 214007329,
    ⟨[[(40603372522412, 0), (7046993158, 0), (12835109, 0), (3721, 0), (0, 1)], [(4732921268, 0), (2717498, 0), (0,
    60)], [(0, 872808), (0, 882)], [(214, 0)]], 3, 4⟩, 68719476736, 63808,
    5313029261344712332396364665729598743642927254996148682078046943908503228506337705034550251805, ⟨0, 3,
    878366107163661, [64779437471, 5734724, 677]⟩⟩) (.skip)))) (.sy (.sx (.sy (.leaf ⟨1851, 16, 165, 4055, 16, 2140,
    ⟨[[(103079215104, 0)], [(354334801920, 0)]], 3, 4⟩, ⟨[[(133986649230, 0), (0, 1738884331200), (0, 5108826061),
    (0, 36680370), (0, 305996)], [(0, 238630659529), (0, 1240632842), (0, 11954397), (0, 129282), (0, 1225)], [(0,
    53473148), (0, 1210245), (0, 19634), (0, 252), (0, 2)], [(0, 38344), (0, 1266), (0, 25)]], 3, 4⟩, 1099511627776,
    0, 192471724, ⟨[[(40736887940376, 0), (6983114817, 0), (12445205, 0), (3572, 0), (0, 1)], [(4674780743, 0),
    (2625748, 0), (0, 60)], [(0, 851713), (0, 827)], [(208, 0)]], 3, 4⟩, 68719476736, 66132,
    3315093018651067281331495302129652554363684709885469681460986882749707009583905012328499597928, ⟨0, 4,
    897534338954712, [64633045873, 5626136, 653]⟩⟩) (.sx (.leaf ⟨3687, 16, 330, 6082, 16, 3213, ⟨[[(0,
    309237645312)], [(354334801920, 0)]], 3, 4⟩, ⟨[[(0, 120749787095), (0, 2660003135681), (0, 8264628159), (0,
    61851099), (0, 522078)], [(0, 182916912615), (0, 999216852), (0, 10084054), (0, 110907), (0, 1050)], [(0,
    21862788), (0, 512311), (0, 8470), (0, 109), (0, 1)], [(0, 8163), (0, 275), (0, 5)]], 3, 4⟩, 1099511627776, 0,
    22711527, ⟨[[(40673306457508, 0), (4569745581, 0), (5501471, 0), (1059, 0)], [(2338361558, 0), (878758, 0), (0,
    14)], [(0, 213238), (0, 139)], [(26, 0)]], 3, 4⟩, 68719476736, 19028,
    4268901164424068562472589163928007851993897655206646444463817626695197581141844542641831253752, ⟨0, 3,
    1345225890799960, [48723668730, 2129531, 124]⟩⟩) (.skip))) (.skip)) (.skip))) (.sx (.sy (.sx (.sy (.sx (.sy
    (.leaf ⟨3563, 16, 330, 8182, 16, 4305, ⟨[[(0, 34359738368)], [(354334801920, 0)]], 3, 4⟩, ⟨[[(91312638405, 0),
    (0, 1706695342647), (0, 2495710792), (0, 9008801), (0, 37045)], [(0, 244510159253), (0, 627290141), (0, 3033025),
    (0, 16206), (0, 75)], [(0, 27901952), (0, 317182), (0, 2542), (0, 16)], [(0, 10392), (0, 169), (0, 2)]], 3, 4⟩,
    1099511627776, 0, 25319358, ⟨[[(40492885960609, 0), (3530825391, 0), (3108440, 0), (433, 0)], [(2414931087, 0),
    (682542, 0), (0, 6)], [(0, 226887), (0, 115)], [(28, 0)]], 3, 4⟩, 68719476736, 9707,
    4200842564104452481963062943625664568764210904783021205857814694120619147250478907389935472352, ⟨0, 3,
    1776927648089166, [67550785960, 3054938, 184]⟩⟩) (.skip)) (.skip)) (.skip)) (.skip)) (.skip)) (.skip)))) (.skip)
theorem c74 : checkC job ⟨6, 8, 7, 8, 9, 13⟩ 1 25 lims t74 368 48 32 213 3 512 = true := by decide +kernel

def t75 : CTree :=
  .skip
theorem c75 : checkC job ⟨6, 8, 7, 8, 9, 13⟩ 1 25 lims t75 464 48 32 105 3 256 = true := by decide +kernel

def t76 : CTree :=
  .sx (.sx (.sx (.out ⟨339, 16, 81, 1478, 16, 680, ⟨[[(206158430208, 0)], [(347892350976, 0)]], 1, 1⟩,
    ⟨[[(516004174864, 0), (0, 3019972509557)], [(0, 155230188056), (0, 1234699901)]], 1, 1⟩, 1099511627776, 0,
    361204307056, ⟨[], 0, 0⟩, 0, 0, 0, ⟨0, 2, 168942423527830, [110044770250]⟩⟩ 0 1 5078) (.out ⟨370, 16, 81, 1463,
    16, 679, ⟨[[(0, 481036337152)], [(347892350976, 0)]], 1, 1⟩, ⟨[[(95727975243, 0), (0, 3139091557197)], [(0,
    147828684778), (0, 1343885327)]], 1, 1⟩, 1099511627776, 0, 351439396599, ⟨[], 0, 0⟩, 0, 0, 0, ⟨0, 2,
    178796839647504, [100851465209]⟩⟩ 0 1 4525)) (.sx (.out ⟨400, 16, 81, 1435, 16, 672, ⟨[[(0, 68719476736)],
    [(347892350976, 0)]], 1, 1⟩, ⟨[[(531741351363, 0), (0, 3240365047499)], [(0, 140713223103), (0, 1457276766)]], 1,
    1⟩, 1099511627776, 0, 353890978537, ⟨[], 0, 0⟩, 0, 0, 0, ⟨0, 2, 186162052911041, [92231119429]⟩⟩ 0 1 3963) (.out
    ⟨430, 16, 81, 1402, 16, 662, ⟨[[(343597383680, 0)], [(347892350976, 0)]], 1, 1⟩, ⟨[[(235460818232, 0), (0,
    3336817033905)], [(0, 134342222701), (0, 1582369042)]], 1, 1⟩, 1099511627776, 0, 368952771044, ⟨[], 0, 0⟩, 0, 0,
    0, ⟨0, 2, 191798852006004, [84445082001]⟩⟩ 0 1 3448))) (.sx (.out ⟨235, 16, 40, 973, 16, 465, ⟨[[],
    [(343597383680, 0)]], 1, 1⟩, ⟨[[(0, 216997479339), (0, 2517040377648)], [(0, 182445854199), (0, 2604418272)]], 1,
    1⟩, 1099511627776, 0, 686269065720, ⟨[], 0, 0⟩, 0, 0, 0, ⟨0, 3, 142841600333382, [107272991775]⟩⟩ 0 1 2707) (.out
    ⟨265, 16, 40, 916, 16, 445, ⟨[[], [(343597383680, 0)]], 1, 1⟩, ⟨[[(0, 91546014648), (0, 2677904918520)], [(0,
    170783343000), (0, 3153174196)]], 1, 1⟩, 1099511627776, 0, 736385106133, ⟨[], 0, 0⟩, 0, 0, 0, ⟨0, 3,
    145972973563463, [91037314789]⟩⟩ 0 1 1711))
theorem c76 : checkC job ⟨6, 8, 7, 8, 9, 13⟩ 1 25 lims t76 176 48 32 111 3 256 = true := by decide +kernel

def t77 : CTree :=
  .sx (.sy (.out ⟨295, 16, 40, 1200, 16, 590, ⟨[[], [(343597383680, 0)]], 1, 1⟩, ⟨[[(0, 27100426354), (0,
    1939063483593)], [(0, 219570071372), (0, 2421914789)]], 1, 1⟩, 1099511627776, 0, 602625179153, ⟨[], 0, 0⟩, 0, 0,
    0, ⟨0, 3, 204514272418274, [108426464805]⟩⟩ 0 1 994) (.sx (.out ⟨582, 16, 81, 1680, 16, 830, ⟨[[(206158430208,
    0)], [(347892350976, 0)]], 1, 1⟩, ⟨[[(0, 83035957361), (0, 2825778701109)], [(0, 165020831417), (0,
    2019350865)]], 1, 1⟩, 1099511627776, 0, 383242344881, ⟨[], 0, 0⟩, 0, 0, 0, ⟨0, 3, 283998408020594,
    [78255622424]⟩⟩ 0 1 707) (.sy (.sx (.out ⟨1210, 16, 162, 3336, 16, 1655, ⟨[[(0, 68719476736)], [(347892350976,
    0)]], 1, 1⟩, ⟨[[(122058741957, 0), (0, 2912175503732)], [(0, 162824440928), (0, 1057249638)]], 1, 1⟩,
    1099511627776, 0, 181082945040, ⟨[], 0, 0⟩, 0, 0, 0, ⟨0, 3, 577306608122426, [75081924373]⟩⟩ 0 1 462) (.leaf
    ⟨1263, 16, 165, 3288, 16, 1638, ⟨[[(309237645312, 0)], [(354334801920, 0)]], 3, 4⟩, ⟨[[(0, 304874394613), (0,
    2986759506743), (0, 10515728771), (0, 101466678), (0, 1329679)], [(0, 162342863242), (0, 1132631958), (0,
    13609628), (0, 212523), (0, 4593)], [(0, 7045745), (0, 481614), (0, 11550), (0, 327), (0, 10)], [(0, 6025), (0,
    245), (0, 11)]], 3, 4⟩, 1099511627776, 0, 30561341, ⟨[[(39624734768940, 0), (15146916018, 0), (25270163, 0),
    (6631, 0), (0, 2)], [(6969852119, 0), (5791268, 0), (0, 121), (0, 1)], [(0, 1877962), (0, 3760)], [(619, 0), (4,
    0)]], 3, 4⟩, 68719476736, 110133,
    4757225122502079641320991552931406940558991404305066306692744478385800941357627832421732523244, ⟨0, 3,
    578422321783876, [72490836470, 9246280, 1572]⟩⟩)) (.leaf ⟨620, 16, 82, 2150, 16, 1074, ⟨[[(137438953472, 0)],
    [(352187318272, 0)]], 3, 4⟩, ⟨[[(0, 436680089128), (0, 2008464660235), (0, 7762436497), (0, 84062116), (0,
    1306066)], [(0, 221269675514), (0, 1655793836), (0, 22195743), (0, 413909), (0, 10158)], [(0, 24451047), (0,
    1593200), (0, 45214), (0, 1471), (0, 46)], [(0, 39250), (0, 1972), (0, 100), (0, 4)]], 3, 4⟩, 1099511627776, 0,
    346552351, ⟨[[(39383944271466, 0), (22275945987, 0), (58367595, 0), (23751, 0), (0, 8)], [(14035828279, 0),
    (18143033, 0), (0, 491), (0, 4)], [(0, 7577615), (0, 24248)], [(4782, 0), (46, 0)]], 3, 4⟩, 68719476736, 244570,
    4698392096947468911092584280135361176529410926878658966452286390109224160244162005567506736757, ⟨0, 3,
    376963038830355, [96239688595, 24855291, 8559]⟩⟩)))) (.sy (.sx (.sy (.out ⟨643, 16, 81, 2343, 16, 1163, ⟨[[(0,
    68719476736)], [(347892350976, 0)]], 1, 1⟩, ⟨[[(0, 484164677094), (0, 2061477517850)], [(0, 214996907210), (0,
    1373869771)]], 1, 1⟩, 1099511627776, 0, 280663080549, ⟨[], 0, 0⟩, 0, 0, 0, ⟨0, 3, 417965614927228,
    [99291321707]⟩⟩ 0 1 430) (.leaf ⟨651, 16, 82, 2265, 16, 1130, ⟨[[(0, 137438953472)], [(352187318272, 0)]], 3, 4⟩,
    ⟨[[(0, 61620881849), (0, 2084162580820), (0, 7330262381), (0, 68907423), (0, 863071)], [(0, 217457472038), (0,
    1526546624), (0, 18061234), (0, 270300), (0, 5642)], [(0, 18553245), (0, 1239255), (0, 28659), (0, 778), (0,
    23)], [(0, 29899), (0, 1180), (0, 50), (0, 2)]], 3, 4⟩, 1099511627776, 0, 206691285, ⟨[[(39875153296674, 0),
    (21991437598, 0), (52887681, 0), (20211, 0), (0, 7)], [(13625921357, 0), (15929222, 0), (0, 493), (0, 3)], [(0,
    7190415), (0, 19419)], [(4825, 0), (35, 0)]], 3, 4⟩, 68719476736, 277067,
    4839762552721320950041097588924138633822673365091896888515262239562266816192588824431499375032, ⟨0, 3,
    406105885526886, [96473941126, 23738667, 7788]⟩⟩)) (.leaf ⟨682, 16, 82, 1566, 16, 786, ⟨[[(0, 412316860416)],
    [(352187318272, 0)]], 3, 4⟩, ⟨[[(343497524378, 0), (0, 3046171068438), (0, 23722964145), (0, 482942167), (0,
    13812373)], [(0, 150736654154), (0, 2314163693), (0, 59851617), (0, 2046151), (0, 95998)], [(0, 16309076), (0,
    1984324), (0, 103949), (0, 6325), (0, 399)], [(0, 22201), (0, 2086), (0, 196), (0, 16), (0, 1)]], 3, 4⟩,
    1099511627776, 0, 469622683, ⟨[[(39994412793280, 0), (30245422680, 0), (107563264, 0), (60957, 0), (0, 32)],
    [(12991849376, 0), (21320538, 0), (0, 808), (0, 8)], [(0, 6525558), (0, 23770), (0, 1)], [(4236, 0), (40, 0)]],
    3, 4⟩, 68719476736, 304039,
    3390559730520634286890808483308339821592749651187524354596033896083245993292902516678994450120, ⟨0, 3,
    288771714338663, [64077594990, 15055826, 4717]⟩⟩)) (.sx (.leaf ⟨651, 16, 82, 1490, 16, 749, ⟨[[(0,
    137438953472)], [(352187318272, 0)]], 3, 4⟩, ⟨[[(0, 465184814171), (0, 2964203080829), (0, 25885094525), (0,
    630178072), (0, 22773026)], [(0, 154375782925), (0, 2571227891), (0, 78160863), (0, 3419787), (0, 185346)], [(0,
    21737108), (0, 2703191), (0, 178779), (0, 12833), (0, 837)], [(0, 30919), (0, 3787), (0, 418), (0, 37), (0, 3)]],
    3, 4⟩, 1099511627776, 0, 894866114, ⟨[[(39515080595854, 0), (30480913642, 0), (117994188, 0), (71070, 0), (0,
    37)], [(13353890521, 0), (24053433, 0), (0, 780), (0, 9)], [(0, 6859039), (0, 29280), (0, 1)], [(4234, 0), (52,
    0)]], 3, 4⟩, 68719476736, 256632,
    5283882004070811725641908815363323931748118823692170967148899647757401267370269852720903208892, ⟨0, 3,
    269179918813838, [63946001684, 15734745, 5162]⟩⟩) (.sy (.leaf ⟨682, 16, 82, 2014, 16, 1019, ⟨[[(0,
    412316860416)], [(352187318272, 0)]], 3, 4⟩, ⟨[[(0, 179175572993), (0, 2136209930845), (0, 10569910776), (0,
    146325950), (0, 3024385)], [(0, 210799996008), (0, 1960963733), (0, 34144256), (0, 862470), (0, 25146)], [(0,
    36474280), (0, 2274373), (0, 86215), (0, 3329), (0, 111)], [(0, 48843), (0, 3527), (0, 208), (0, 9)]], 3, 4⟩,
    1099511627776, 0, 545567035, ⟨[[(39632693567370, 0), (21275670922, 0), (62618015, 0), (28705, 0), (0, 11)],
    [(12724969248, 0), (16458436, 0), (0, 327), (0, 3)], [(0, 6228255), (0, 18321)], [(3740, 0), (31, 0)]], 3, 4⟩,
    68719476736, 227494,
    3075088479108180164497789371564860008120627109315775356115069920059561623142335388479100736534, ⟨0, 3,
    374374525332185, [83072607245, 19518940, 6115]⟩⟩) (.sy (.leaf ⟨682, 16, 82, 2392, 16, 1216, ⟨[[(0,
    412316860416)], [(352187318272, 0)]], 3, 4⟩, ⟨[[(532438135190, 0), (0, 1337419282812), (0, 3875038265), (0,
    32609441), (0, 389335)], [(0, 263016407388), (0, 1391041607), (0, 14782796), (0, 220936), (0, 3402)], [(0,
    58246412), (0, 1969134), (0, 44135), (0, 909), (0, 15)], [(0, 83449), (0, 3643), (0, 114), (0, 3)]], 3, 4⟩,
    1099511627776, 0, 861412806, ⟨[[(39435804703938, 0), (16836377144, 0), (43392455, 0), (17144, 0), (0, 6)],
    [(12568261819, 0), (13796717, 0), (0, 183), (0, 1)], [(0, 6053881), (0, 15346)], [(3449, 0), (26, 0)]], 3, 4⟩,
    68719476736, 165137,
    3307565707863240107110643376041178023022184900626558345539927756838550542647949730733918555266, ⟨0, 3,
    446751150936150, [99132767822, 23292474, 7297]⟩⟩) (.leaf ⟨682, 16, 82, 2297, 16, 1171, ⟨[[(0, 412316860416)],
    [(352187318272, 0)]], 3, 4⟩, ⟨[[(0, 231342947470), (0, 1336453505412), (0, 4388914047), (0, 42304837), (0,
    544508)], [(0, 261883502093), (0, 1536505633), (0, 18876566), (0, 309236), (0, 4867)], [(0, 69208356), (0,
    2514934), (0, 61911), (0, 1310), (0, 22)], [(0, 105982), (0, 5143), (0, 166), (0, 4)]], 3, 4⟩, 1099511627776, 0,
    1203234851, ⟨[[(39324467539966, 0), (16879359301, 0), (46416734, 0), (19364, 0), (0, 6)], [(12475411766, 0),
    (14329303, 0), (0, 174), (0, 1)], [(0, 5950625), (0, 15932)], [(3276, 0), (27, 0)]], 3, 4⟩, 68719476736, 186791,
    4304119299995874532785314927166708947817908356223016236611294727274107368637785008944812507629, ⟨0, 3,
    430218419199203, [95464203223, 22430499, 7027]⟩⟩)))))
theorem c77 : checkC job ⟨6, 8, 7, 8, 9, 13⟩ 1 25 lims t77 496 48 64 111 3 256 = true := by decide +kernel

def t78 : CTree :=
  .sx (.sx (.leaf ⟨712, 16, 82, 1460, 16, 739, ⟨[[(412316860416, 0)], [(352187318272, 0)]], 3, 4⟩, ⟨[[(145235144949,
    0), (0, 3092086376079), (0, 28803871380), (0, 710428914), (0, 26291655)], [(0, 145293324492), (0, 2599491252),
    (0, 81588865), (0, 3631758), (0, 202106)], [(0, 22153469), (0, 2617635), (0, 175176), (0, 12722), (0, 854)], [(0,
    27118), (0, 3425), (0, 378), (0, 34), (0, 2)]], 3, 4⟩, 1099511627776, 0, 907224486, ⟨[[(39991141119539, 0),
    (29854489213, 0), (118904728, 0), (75151, 0), (0, 42)], [(12348639985, 0), (21285697, 0), (0, 656), (0, 7)], [(0,
    5882667), (0, 21837), (0, 1)], [(3617, 0), (34, 0)]], 3, 4⟩, 68719476736, 303173,
    4051285658483751413710530839872724271505118118621995304972001836610038246469765695841462262281, ⟨0, 3,
    277161146832019, [57645437044, 12959855, 3885]⟩⟩) (.sy (.leaf ⟨743, 16, 82, 2016, 16, 1026, ⟨[[(137438953472,
    0)], [(352187318272, 0)]], 3, 4⟩, ⟨[[(0, 476810662811), (0, 2263612832504), (0, 11755294452), (0, 161784023), (0,
    3354986)], [(0, 202458771241), (0, 1996945117), (0, 35131786), (0, 881228), (0, 26130)], [(0, 36328818), (0,
    2174066), (0, 81322), (0, 3152), (0, 109)], [(0, 42673), (0, 3069), (0, 180), (0, 8)]], 3, 4⟩, 1099511627776, 0,
    445057313, ⟨[[(40134025782683, 0), (20616445323, 0), (60742430, 0), (28528, 0), (0, 12)], [(11835367623, 0),
    (14430001, 0), (0, 294), (0, 2)], [(0, 5403285), (0, 13647)], [(3231, 0), (20, 0)]], 3, 4⟩, 68719476736, 196977,
    2572686231066593948366500425306911971678308429221495916575199471882816985422459717884924226682, ⟨0, 3,
    392322130270721, [76721070958, 16534714, 4751]⟩⟩) (.leaf ⟨743, 16, 82, 1860, 16, 953, ⟨[[(137438953472, 0)],
    [(352187318272, 0)]], 3, 4⟩, ⟨[[(322920983314, 0), (0, 2253093430991), (0, 14501880553), (0, 261843950), (0,
    6656571)], [(0, 200572001986), (0, 2360975728), (0, 54406945), (0, 1724326), (0, 55472)], [(0, 49369197), (0,
    3351803), (0, 157891), (0, 6758), (0, 237)], [(0, 64858), (0, 5996), (0, 389), (0, 18), (0, 1)]], 3, 4⟩,
    1099511627776, 0, 874233001, ⟨[[(39866255130808, 0), (20443885749, 0), (69047984, 0), (36401, 0), (0, 16)],
    [(11640172141, 0), (15542993, 0), (0, 275), (0, 1)], [(0, 5218806), (0, 14680)], [(2959, 0), (22, 0)]], 3, 4⟩,
    68719476736, 195856,
    4620985141440936678622966159089979015579315451921587617259585672448359958512115898113806605664, ⟨0, 3,
    364408372463935, [71262359282, 15358267, 4413]⟩⟩))) (.sy (.sx (.leaf ⟨774, 16, 82, 1865, 16, 958, ⟨[[(0,
    137438953472)], [(352187318272, 0)]], 3, 4⟩, ⟨[[(171634290453, 0), (0, 2314274561758), (0, 15005067666), (0,
    265643624), (0, 6722013)], [(0, 196804618271), (0, 2352717832), (0, 53390584), (0, 1671788), (0, 54333)], [(0,
    47869051), (0, 3173999), (0, 147187), (0, 6336), (0, 226)], [(0, 59011), (0, 5374), (0, 350), (0, 17), (0, 1)]],
    3, 4⟩, 1099511627776, 0, 769242258, ⟨[[(40124721133586, 0), (20155293566, 0), (67806974, 0), (36107, 0), (0,
    16)], [(11255488193, 0), (14617422, 0), (0, 287), (0, 1)], [(0, 4887606), (0, 12781)], [(2764, 0), (18, 0)]], 3,
    4⟩, 68719476736, 212700,
    3855805492134978291788909625812805943404008712014849632968466366715953507827458448407728803910, ⟨0, 3,
    373058875844211, [68789770386, 14236294, 3928]⟩⟩) (.sy (.leaf ⟨805, 16, 82, 2259, 16, 1169, ⟨[[(0,
    412316860416)], [(352187318272, 0)]], 3, 4⟩, ⟨[[(0, 364085954036), (0, 1533038025459), (0, 6036258697), (0,
    64556385), (0, 913606)], [(0, 248182404285), (0, 1762852126), (0, 24411545), (0, 435623), (0, 7438)], [(0,
    75808439), (0, 2789857), (0, 73833), (0, 1685), (0, 31)], [(0, 99394), (0, 5232), (0, 182), (0, 5)]], 3, 4⟩,
    1099511627776, 0, 1067403099, ⟨[[(40198717771956, 0), (15369040917, 0), (44520196, 0), (20370, 0), (0, 8)],
    [(10769624792, 0), (11375891, 0), (0, 206)], [(0, 4481381), (0, 9233)], [(2435, 0), (12, 0)]], 3, 4⟩,
    68719476736, 158668,
    3378863580028313746947398736946605646900126337069130132030771548965841602158714924817657857667, ⟨0, 3,
    463127619876414, [80732826342, 16069432, 4265]⟩⟩) (.sx (.leaf ⟨1604, 16, 165, 3466, 16, 1796, ⟨[[(0,
    446676598784)], [(354334801920, 0)]], 3, 4⟩, ⟨[[(0, 464350705466), (0, 2404114272312), (0, 10243787932), (0,
    118736910), (0, 1736976)], [(0, 196178890551), (0, 1487517948), (0, 22435577), (0, 418369), (0, 7178)], [(0,
    33147248), (0, 1290892), (0, 35821), (0, 825), (0, 15)], [(0, 23193), (0, 1285), (0, 45), (0, 1)]], 3, 4⟩,
    1099511627776, 0, 127327303, ⟨[[(40068163036447, 0), (9770768128, 0), (18783903, 0), (5642, 0), (0, 1)],
    [(5370163840, 0), (3727874, 0), (0, 43)], [(0, 1113975), (0, 1531)], [(297, 0), (1, 0)]], 3, 4⟩, 68719476736,
    38836, 3827491161746911411631118267828229149658664228402577323167480623297821253624135022064014775280, ⟨0, 3,
    708537696441288, [62615411829, 6291742, 843]⟩⟩) (.sy (.leaf ⟨1635, 16, 165, 4303, 16, 2239, ⟨[[(0,
    515396075520)], [(354334801920, 0)]], 3, 4⟩, ⟨[[(0, 9271508756), (0, 1572560470980), (0, 3755966055), (0,
    23822657), (0, 181517)], [(0, 250143297776), (0, 1051716435), (0, 8764435), (0, 85914), (0, 750)], [(0,
    47802500), (0, 989783), (0, 14481), (0, 170), (0, 2)], [(0, 34934), (0, 1026), (0, 18)]], 3, 4⟩, 1099511627776,
    0, 169221298, ⟨[[(40095343946029, 0), (7498761903, 0), (11927657, 0), (2953, 0), (0, 1)], [(5249674351, 0),
    (2917491, 0), (0, 31)], [(0, 1065888), (0, 1155)], [(278, 0), (1, 0)]], 3, 4⟩, 68719476736, 59325,
    4965372529776820020412765774417608459165452720739724481886522055232427210773847805779010818970, ⟨0, 3,
    890727465315681, [76582604006, 7549547, 992]⟩⟩) (.sx (.sy (.leaf ⟨3254, 16, 330, 8612, 16, 4482, ⟨[[(0,
    446676598784)], [(354334801920, 0)]], 3, 4⟩, ⟨[[(0, 291354772696), (0, 1582661440898), (0, 1936634478), (0,
    6269792), (0, 24022)], [(0, 252831509823), (0, 542400871), (0, 2312547), (0, 11432), (0, 50)], [(0, 24918055),
    (0, 262227), (0, 1937), (0, 11)], [(0, 9298), (0, 138), (0, 1)]], 3, 4⟩, 1099511627776, 0, 22103515,
    ⟨[[(40046985490733, 0), (3724295878, 0), (2974791, 0), (368, 0)], [(2632153552, 0), (733387, 0), (0, 4)], [(0,
    267898), (0, 147)], [(35, 0)]], 3, 4⟩, 68719476736, 11210,
    4377593149019128819574155287127198083897362973629126328487357347795228328468196400795779143168, ⟨0, 3,
    1779358244816041, [77015438234, 3814156, 252]⟩⟩) (.skip)) (.skip)))))) (.sx (.sy (.leaf ⟨774, 16, 82, 2231, 16,
    1152, ⟨[[(0, 137438953472)], [(352187318272, 0)]], 3, 4⟩, ⟨[[(118730578970, 0), (0, 1484084434749), (0,
    5891562314), (0, 64810794), (0, 919538)], [(0, 250903648119), (0, 1778610223), (0, 25314174), (0, 456348), (0,
    7681)], [(0, 79144458), (0, 2995109), (0, 80347), (0, 1813), (0, 32)], [(0, 110784), (0, 5909), (0, 203), (0,
    5)]], 3, 4⟩, 1099511627776, 0, 1238076172, ⟨[[(39935437291019, 0), (15674949738, 0), (46158704, 0), (21128, 0),
    (0, 8)], [(11113576253, 0), (12160319, 0), (0, 191)], [(0, 4763586), (0, 10621)], [(2592, 0), (15, 0)]], 3, 4⟩,
    68719476736, 147291,
    4920076333141985856697015939456036603234018166837714953000775317844359952032419930553918147651, ⟨0, 3,
    448605245274040, [82720057917, 17119217, 4724]⟩⟩) (.sx (.sy (.leaf ⟨1542, 16, 165, 4471, 16, 2309, ⟨[[(0,
    309237645312)], [(354334801920, 0)]], 3, 4⟩, ⟨[[(0, 272268325905), (0, 1497864477434), (0, 3091318623), (0,
    17697521), (0, 127302)], [(0, 255720358257), (0, 935009414), (0, 6947356), (0, 63878), (0, 537)], [(0, 42536914),
    (0, 829064), (0, 11368), (0, 128), (0, 1)], [(0, 30953), (0, 846), (0, 15)]], 3, 4⟩, 1099511627776, 0, 146226788,
    ⟨[[(39844578968106, 0), (7757942088, 0), (11484733, 0), (2625, 0)], [(5557579012, 0), (3056212, 0), (0, 23)],
    [(0, 1190372), (0, 1352)], [(320, 0), (1, 0)]], 3, 4⟩, 68719476736, 45093,
    3587450059653500617678998552314513019091336752766131908777218725777271504149564063353449596823, ⟨0, 3,
    895158486464757, [83731340212, 8751185, 1220]⟩⟩) (.sx (.leaf ⟨3068, 16, 330, 6990, 16, 3612, ⟨[[(0,
    34359738368)], [(354334801920, 0)]], 3, 4⟩, ⟨[[(0, 437733692077), (0, 2366680683165), (0, 5083667333), (0,
    30179793), (0, 219841)], [(0, 202856432606), (0, 766867658), (0, 5930808), (0, 55493), (0, 467)], [(0, 17757598),
    (0, 355386), (0, 4968), (0, 56)], [(0, 6665), (0, 186), (0, 3)]], 3, 4⟩, 1099511627776, 0, 17233759,
    ⟨[[(39780117254231, 0), (4905697717, 0), (4684989, 0), (687, 0)], [(2784362681, 0), (983862, 0), (0, 5)], [(0,
    298626), (0, 220)], [(40, 0)]], 3, 4⟩, 68719476736, 15066,
    3989632380456628411744083138889374126171162116994740889172094364315222940821287763088691037190, ⟨0, 3,
    1397157073461104, [65821242164, 3456998, 242]⟩⟩) (.sy (.leaf ⟨3099, 16, 330, 8734, 16, 4523, ⟨[[(0,
    103079215104)], [(354334801920, 0)]], 3, 4⟩, ⟨[[(298237310592, 0), (0, 1519488765150), (0, 1735286272), (0,
    5397757), (0, 20062)], [(0, 256971806004), (0, 513456116), (0, 2092323), (0, 10033), (0, 43)], [(0, 24058258),
    (0, 248300), (0, 1781), (0, 10)], [(0, 9222), (0, 132), (0, 1)]], 3, 4⟩, 1099511627776, 0, 22095492,
    ⟨[[(39792398493243, 0), (3828762138, 0), (2967706, 0), (352, 0)], [(2751250459, 0), (775113, 0), (0, 3)], [(0,
    291714), (0, 170)], [(38, 0)]], 3, 4⟩, 68719476736, 11248,
    4690498004584867761187412063344978579783106485713103962701534303491415209413791500510925802557, ⟨0, 3,
    1757413735677833, [81599484245, 4242902, 294]⟩⟩) (.skip)))) (.sy (.sx (.sy (.leaf ⟨3130, 16, 330, 8756, 16, 4537,
    ⟨[[(0, 171798691840)], [(354334801920, 0)]], 3, 4⟩, ⟨[[(0, 500979405646), (0, 1531660152417), (0, 1746298863),
    (0, 5409521), (0, 20142)], [(0, 256204501838), (0, 512287639), (0, 2077827), (0, 9966), (0, 42)], [(0, 23798526),
    (0, 244306), (0, 1751), (0, 10)], [(0, 8987), (0, 129), (0, 1)]], 3, 4⟩, 1099511627776, 0, 21330165,
    ⟨[[(39858147441073, 0), (3811072234, 0), (2944045, 0), (350, 0)], [(2729436546, 0), (762428, 0), (0, 3)], [(0,
    287327), (0, 164)], [(38, 0)]], 3, 4⟩, 68719476736, 8722,
    4221582580383086560391221945068825080947445448615851396329858109619694607531473159020032007187, ⟨0, 3,
    1770672275238557, [81042977071, 4172311, 286]⟩⟩) (.skip)) (.skip)) (.skip)))) (.sy (.sx (.sy (.sx (.leaf ⟨3192,
    16, 330, 6822, 16, 3541, ⟨[[(0, 309237645312)], [(354334801920, 0)]], 3, 4⟩, ⟨[[(0, 368329339752), (0,
    2428936355039), (0, 5624596921), (0, 35067824), (0, 263434)], [(0, 198649199406), (0, 808617773), (0, 6607343),
    (0, 63863), (0, 550)], [(0, 18571959), (0, 381427), (0, 5504), (0, 64), (0, 1)], [(0, 6885), (0, 199), (0, 4)]],
    3, 4⟩, 1099511627776, 0, 18100635, ⟨[[(39968575216021, 0), (4828970766, 0), (4806668, 0), (740, 0)],
    [(2683003383, 0), (951779, 0), (0, 6)], [(0, 277998), (0, 197)], [(37, 0)]], 3, 4⟩, 68719476736, 16202,
    4356232077783856452189595700887825288662804475798117309077613830291148643562871643302438423205, ⟨0, 3,
    1393985412466767, [62025543114, 3131338, 211]⟩⟩) (.sy (.leaf ⟨3223, 16, 330, 8582, 16, 4464, ⟨[[(0,
    377957122048)], [(354334801920, 0)]], 3, 4⟩, ⟨[[(41974154368, 0), (0, 1570532844374), (0, 1931633303), (0,
    6294684), (0, 24091)], [(0, 253519411459), (0, 545178052), (0, 2341320), (0, 11580), (0, 50)], [(0, 25278534),
    (0, 267808), (0, 1981), (0, 12)], [(0, 9583), (0, 142), (0, 1)]], 3, 4⟩, 1099511627776, 0, 23057015,
    ⟨[[(39982237793932, 0), (3743875672, 0), (3004071, 0), (372, 0)], [(2652283479, 0), (745568, 0), (0, 4)], [(0,
    271848), (0, 152)], [(35, 0)]], 3, 4⟩, 68719476736, 11156,
    4983444539470094201241887491248797508133421943198043466512589759187635005829057099249735783030, ⟨0, 3,
    1764813204776233, [77442518222, 3872126, 258]⟩⟩) (.skip))) (.skip)) (.skip)) (.skip))))
theorem c78 : checkC job ⟨6, 8, 7, 8, 9, 13⟩ 1 25 lims t78 592 48 64 219 3 512 = true := by decide +kernel

def t79 : CTree :=
  .sx (.sx (.sy (.leaf ⟨712, 16, 82, 1860, 16, 950, ⟨[[(412316860416, 0)], [(352187318272, 0)]], 3, 4⟩, ⟨[[(0,
    12564963846), (0, 2190079093001), (0, 13861139512), (0, 251802038), (0, 6361902)], [(0, 204503186812), (0,
    2350637019), (0, 54312940), (0, 1722314), (0, 54637)], [(0, 50264023), (0, 3475407), (0, 164551), (0, 6974), (0,
    239)], [(0, 70166), (0, 6517), (0, 420), (0, 20), (0, 1)]], 3, 4⟩, 1099511627776, 0, 970378037,
    ⟨[[(39619859570931, 0), (20827817573, 0), (70135842, 0), (36422, 0), (0, 16)], [(12069361882, 0), (16569121, 0),
    (0, 273), (0, 2)], [(0, 5596389), (0, 16971)], [(3168, 0), (27, 0)]], 3, 4⟩, 68719476736, 219955,
    5272412271805889223429943686919294454562683283446896144258053866140537313704487513843544353428, ⟨0, 3,
    356296467510715, [74104418392, 16660166, 4994]⟩⟩) (.sy (.sx (.leaf ⟨1418, 16, 165, 3635, 16, 1861, ⟨[[(0,
    34359738368)], [(354334801920, 0)]], 3, 4⟩, ⟨[[(0, 333027654955), (0, 2218120704883), (0, 7985859158), (0,
    83210849), (0, 1122087)], [(0, 208809756961), (0, 1333759046), (0, 17850831), (0, 307653), (0, 4950)], [(0,
    30652319), (0, 1152833), (0, 29788), (0, 644), (0, 11)], [(0, 23434), (0, 1200), (0, 40), (0, 1)]], 3, 4⟩,
    1099511627776, 0, 129378061, ⟨[[(39441505770750, 0), (10255145765, 0), (18150950, 0), (4883, 0), (0, 1)],
    [(6002066330, 0), (4267959, 0), (0, 32)], [(0, 1380202), (0, 2215)], [(375, 0), (2, 0)]], 3, 4⟩, 68719476736,
    36278, 3896809439304107157978942114342705625648770754991285149360337438878097282285854620198132701751, ⟨0, 3,
    694463092773061, [73375145819, 8338085, 1263]⟩⟩) (.sy (.sx (.leaf ⟨2882, 16, 330, 7174, 16, 3684,
    ⟨[[(377957122048, 0)], [(354334801920, 0)]], 3, 4⟩, ⟨[[(39195272300, 0), (0, 2269589024526), (0, 4439604784), (0,
    24808210), (0, 173108)], [(0, 209226374739), (0, 719835141), (0, 5205482), (0, 46695), (0, 381)], [(0, 16923020),
    (0, 331022), (0, 4452), (0, 49)], [(0, 6611), (0, 177), (0, 3)]], 3, 4⟩, 1099511627776, 0, 17159755,
    ⟨[[(39467138245026, 0), (5028646096, 0), (4590343, 0), (635, 0)], [(2946654236, 0), (1053129, 0), (0, 4)], [(0,
    332822), (0, 265)], [(45, 0)]], 3, 4⟩, 68719476736, 15506,
    3696207153239723906953490682620032223038889917592255965423616582032267910420730478399832302982, ⟨0, 3,
    1385119355736970, [71456725642, 3994674, 298]⟩⟩) (.sy (.leaf ⟨2913, 16, 330, 8869, 16, 4564, ⟨[[(309237645312,
    0)], [(354334801920, 0)]], 3, 4⟩, ⟨[[(0, 181724655804), (0, 1441523214704), (0, 1502743525), (0, 4416828), (0,
    15764)], [(0, 262018938306), (0, 477295561), (0, 1826457), (0, 8417), (0, 35)], [(0, 22798230), (0, 229926), (0,
    1590), (0, 9)], [(0, 9081), (0, 125), (0, 1)]], 3, 4⟩, 1099511627776, 0, 22058420, ⟨[[(39482978985352, 0),
    (3973945390, 0), (2972002, 0), (336, 0)], [(2910528101, 0), (837147, 0), (0, 3)], [(0, 324835), (0, 206)], [(43,
    0)]], 3, 4⟩, 68719476736, 11188,
    4544732270096894180106746424756865618317736794520126987309601598048070016788615128395874786869, ⟨0, 3,
    1724437091376831, [87585554933, 4844334, 357]⟩⟩) (.skip))) (.skip))) (.sx (.sy (.sx (.leaf ⟨2820, 16, 330, 7186,
    16, 3684, ⟨[[(515396075520, 0)], [(354334801920, 0)]], 3, 4⟩, ⟨[[(178177967407, 0), (0, 2236875964462), (0,
    4324310506), (0, 24059237), (0, 166421)], [(0, 211321395136), (0, 716347795), (0, 5157412), (0, 45978), (0,
    371)], [(0, 17045758), (0, 334845), (0, 4486), (0, 49)], [(0, 6837), (0, 182), (0, 3)]], 3, 4⟩, 1099511627776, 0,
    18013828, ⟨[[(39343365555044, 0), (5072756779, 0), (4613395, 0), (632, 0)], [(3001483049, 0), (1087107, 0), (0,
    4)], [(0, 344511), (0, 285)], [(46, 0)]], 3, 4⟩, 68719476736, 15522,
    4055367567828141330039261377777593572750785876709175410950939430585844111177235139624987793241, ⟨0, 3,
    1371250262760470, [73024332055, 4171865, 318]⟩⟩) (.skip)) (.skip)) (.skip)))) (.sy (.sy (.sx (.leaf ⟨1480, 16,
    165, 3629, 16, 1864, ⟨[[(0, 171798691840)], [(354334801920, 0)]], 3, 4⟩, ⟨[[(0, 899826834), (0, 2282319080940),
    (0, 8370722147), (0, 87316804), (0, 1192908)], [(0, 204753603562), (0, 1341403822), (0, 17989730), (0, 312268),
    (0, 5112)], [(0, 30085787), (0, 1116352), (0, 28918), (0, 635), (0, 11)], [(0, 21735), (0, 1115), (0, 37), (0,
    1)]], 3, 4⟩, 1099511627776, 0, 116265568, ⟨[[(39686489086046, 0), (10067683780, 0), (17916886, 0), (4905, 0), (0,
    1)], [(5787719704, 0), (4006609, 0), (0, 33)], [(0, 1288101), (0, 1916)], [(353, 0), (1, 0)]], 3, 4⟩,
    68719476736, 45182,
    2981684424120251349341668297102923381576740513290156774239756402183288380325332658793933124184, ⟨0, 3,
    709394133408462, [70420533239, 7667741, 1113]⟩⟩) (.sy (.leaf ⟨1511, 16, 165, 4450, 16, 2295, ⟨[[(0,
    240518168576)], [(354334801920, 0)]], 3, 4⟩, ⟨[[(0, 212658665123), (0, 1472589051578), (0, 3036855637), (0,
    17502525), (0, 125458)], [(0, 257149611397), (0, 935400193), (0, 6999584), (0, 64338), (0, 537)], [(0, 43233928),
    (0, 851190), (0, 11690), (0, 131), (0, 1)], [(0, 32419), (0, 887), (0, 15)]], 3, 4⟩, 1099511627776, 0, 155636716,
    ⟨[[(39718664592349, 0), (7850949132, 0), (11674868, 0), (2662, 0)], [(5651622624, 0), (3161728, 0), (0, 22)],
    [(0, 1229159), (0, 1453)], [(330, 0), (1, 0)]], 3, 4⟩, 68719476736, 44057,
    4384428027090429930684388630268483419532343805232436606528429066310219416462293039713850796898, ⟨0, 3,
    881660212059489, [84927896494, 9058009, 1288]⟩⟩) (.sx (.leaf ⟨3006, 16, 330, 6986, 16, 3605, ⟨[[(103079215104,
    0)], [(354334801920, 0)]], 3, 4⟩, ⟨[[(0, 24349400055), (0, 2335720713579), (0, 5011051898), (0, 29902872), (0,
    216826)], [(0, 204794845170), (0, 769961651), (0, 5989637), (0, 55954), (0, 467)], [(0, 18115213), (0, 365861),
    (0, 5115), (0, 57), (0, 1)], [(0, 7001), (0, 195), (0, 3)]], 3, 4⟩, 1099511627776, 0, 18623911,
    ⟨[[(39653090114724, 0), (4943232848, 0), (4723229, 0), (688, 0)], [(2831532355, 0), (1013903, 0), (0, 4)], [(0,
    308308), (0, 235)], [(41, 0)]], 3, 4⟩, 68719476736, 14596,
    4763822096184255695878756504741620077764821586385016806483307733185908740114212441381551752991, ⟨0, 3,
    1381707289609195, [67045867173, 3593796, 257]⟩⟩) (.skip)))) (.sx (.sy (.leaf ⟨1480, 16, 165, 4435, 16, 2284,
    ⟨[[(0, 171798691840)], [(354334801920, 0)]], 3, 4⟩, ⟨[[(52956519958, 0), (0, 1447980534622), (0, 2974393325), (0,
    17197615), (0, 122628)], [(0, 258769480235), (0, 933877214), (0, 7013452), (0, 64318), (0, 532)], [(0, 43814607),
    (0, 869693), (0, 11940), (0, 133), (0, 1)], [(0, 33813), (0, 925), (0, 16)]], 3, 4⟩, 1099511627776, 0, 165514686,
    ⟨[[(39592041481161, 0), (7938378707, 0), (11839425, 0), (2689, 0)], [(5749482047, 0), (3270345, 0), (0, 21)],
    [(0, 1269819), (0, 1563)], [(339, 0), (1, 0)]], 3, 4⟩, 68719476736, 52694,
    5127311245682743351323906431101234840865959869977921817848649505265873492506157204120036549813, ⟨0, 3,
    869236159176464, [86287820772, 9395451, 1364]⟩⟩) (.sx (.sy (.leaf ⟨2944, 16, 330, 8881, 16, 4574,
    ⟨[[(240518168576, 0)], [(354334801920, 0)]], 3, 4⟩, ⟨[[(240647109928, 0), (0, 1454275494128), (0, 1521583259),
    (0, 4473594), (0, 16024)], [(0, 261224151395), (0, 478428939), (0, 1830959), (0, 8457), (0, 35)], [(0, 22691033),
    (0, 228169), (0, 1579), (0, 9)], [(0, 8917), (0, 123), (0, 1)]], 3, 4⟩, 1099511627776, 0, 21440662,
    ⟨[[(39543394946136, 0), (3947027270, 0), (2951485, 0), (335, 0)], [(2884396809, 0), (822818, 0), (0, 3)], [(0,
    319361), (0, 199)], [(42, 0)]], 3, 4⟩, 68719476736, 12631,
    4268812891782780249277933317982225514163604801986936148969317946985619014179484144057581018331, ⟨0, 3,
    1736597644567084, [86855105082, 4753454, 347]⟩⟩) (.skip)) (.skip))) (.skip))) (.skip))) (.skip)
theorem c79 : checkC job ⟨6, 8, 7, 8, 9, 13⟩ 1 25 lims t79 592 48 64 225 3 512 = true := by decide +kernel

def t80 : CTree :=
  .sx (.sx (.sx (.out ⟨339, 16, 81, 1399, 16, 651, ⟨[[(206158430208, 0)], [(347892350976, 0)]], 1, 1⟩,
    ⟨[[(439773243794, 0), (0, 2985830576730)], [(0, 156576843707), (0, 1493197821)]], 1, 1⟩, 1099511627776, 0,
    401409920632, ⟨[], 0, 0⟩, 0, 0, 0, ⟨0, 2, 161737526053849, [105351684460]⟩⟩ 0 1 4360) (.out ⟨370, 16, 81, 1371,
    16, 644, ⟨[[(0, 481036337152)], [(347892350976, 0)]], 1, 1⟩, ⟨[[(113082492325, 0), (0, 3103606883091)], [(0,
    148902989689), (0, 1651000026)]], 1, 1⟩, 1099511627776, 0, 406591338344, ⟨[], 0, 0⟩, 0, 0, 0, ⟨0, 2,
    169580507706911, [95652936074]⟩⟩ 0 1 3772)) (.sx (.out ⟨400, 16, 81, 1333, 16, 632, ⟨[[(0, 68719476736)],
    [(347892350976, 0)]], 1, 1⟩, ⟨[[(0, 6257205627), (0, 3210968639885)], [(0, 141819808975), (0, 1828304081)]], 1,
    1⟩, 1099511627776, 0, 429886325123, ⟨[], 0, 0⟩, 0, 0, 0, ⟨0, 2, 175080978333003, [86741171844]⟩⟩ 0 1 3196) (.out
    ⟨430, 16, 81, 1285, 16, 615, ⟨[[(343597383680, 0)], [(347892350976, 0)]], 1, 1⟩, ⟨[[(245363619804, 0), (0,
    3306914386077)], [(0, 135142340450), (0, 2027730095)]], 1, 1⟩, 1099511627776, 0, 471340680011, ⟨[], 0, 0⟩, 0, 0,
    0, ⟨0, 2, 178181712966303, [78449736300]⟩⟩ 0 1 2618))) (.sx (.sx (.out ⟨461, 16, 81, 1230, 16, 594, ⟨[[(0,
    343597383680)], [(347892350976, 0)]], 1, 1⟩, ⟨[[(20590847635, 0), (0, 3395722118562)], [(0, 128934717020), (0,
    2254614727)]], 1, 1⟩, 1099511627776, 0, 533010752160, ⟨[], 0, 0⟩, 0, 0, 0, ⟨0, 3, 179126218034443,
    [70775077026]⟩⟩ 0 1 2070) (.sy (.out ⟨491, 16, 81, 1784, 16, 866, ⟨[[(68719476736, 0)], [(347892350976, 0)]], 1,
    1⟩, ⟨[[(5821066751, 0), (0, 2572500709717)], [(0, 181862832944), (0, 1711344199)]], 1, 1⟩, 1099511627776, 0,
    356873766950, ⟨[], 0, 0⟩, 0, 0, 0, ⟨0, 3, 270743116016202, [96801359300]⟩⟩ 0 1 1758) (.out ⟨491, 16, 81, 1661,
    16, 813, ⟨[[(68719476736, 0)], [(347892350976, 0)]], 1, 1⟩, ⟨[[(285366180359, 0), (0, 2563211516286)], [(0,
    181545612267), (0, 2026766128)]], 1, 1⟩, 1099511627776, 0, 410119522089, ⟨[], 0, 0⟩, 0, 0, 0, ⟨0, 3,
    254173387206897, [90877026687]⟩⟩ 0 1 1261))) (.sy (.sx (.out ⟨521, 16, 81, 1711, 16, 838, ⟨[[(481036337152, 0)],
    [(347892350976, 0)]], 1, 1⟩, ⟨[[(0, 36308153175), (0, 2660615667742)], [(0, 176026702849), (0, 1922514293)]], 1,
    1⟩, 1099511627776, 0, 379869064588, ⟨[], 0, 0⟩, 0, 0, 0, ⟨0, 3, 270714607484883, [88214929618]⟩⟩ 0 1 1224) (.out
    ⟨552, 16, 81, 1625, 16, 803, ⟨[[(0, 206158430208)], [(347892350976, 0)]], 1, 1⟩, ⟨[[(0, 300598193642), (0,
    2741309647614)], [(0, 170126248344), (0, 2168621046)]], 1, 1⟩, 1099511627776, 0, 418450092145, ⟨[], 0, 0⟩, 0, 0,
    0, ⟨0, 3, 267295281345928, [79877478200]⟩⟩ 0 1 694)) (.sx (.sy (.out ⟨521, 16, 81, 2138, 16, 1054,
    ⟨[[(481036337152, 0)], [(347892350976, 0)]], 1, 1⟩, ⟨[[(0, 79351648730), (0, 1763955394832)], [(0, 233380628233),
    (0, 1469531794)]], 1, 1⟩, 1099511627776, 0, 354666624421, ⟨[], 0, 0⟩, 0, 0, 0, ⟨0, 3, 340493074330628,
    [110952906703]⟩⟩ 0 1 835) (.out ⟨521, 16, 81, 2039, 16, 1010, ⟨[[(481036337152, 0)], [(347892350976, 0)]], 1, 1⟩,
    ⟨[[(289966094267, 0), (0, 1762549693158)], [(0, 232753056592), (0, 1642426554)]], 1, 1⟩, 1099511627776, 0,
    383376509135, ⟨[], 0, 0⟩, 0, 0, 0, ⟨0, 3, 326278942195384, [106321096556]⟩⟩ 0 1 552)) (.sy (.sx (.out ⟨1088, 16,
    162, 3101, 16, 1540, ⟨[[(481036337152, 0)], [(347892350976, 0)]], 1, 1⟩, ⟨[[(295145430423, 0), (0,
    2743666657123)], [(0, 172656163949), (0, 1244813358)]], 1, 1⟩, 1099511627776, 0, 217349099932, ⟨[], 0, 0⟩, 0, 0,
    0, ⟨0, 3, 508919003204315, [77663607349]⟩⟩ 0 1 401) (.leaf ⟨1140, 16, 165, 3028, 16, 1511, ⟨[[(0, 515396075520)],
    [(354334801920, 0)]], 3, 4⟩, ⟨[[(0, 9218874314), (0, 2815920249068), (0, 12123019812), (0, 157622909), (0,
    2893834)], [(0, 171452514174), (0, 1365719283), (0, 21686638), (0, 494581), (0, 13039)], [(0, 12166403), (0,
    842122), (0, 29361), (0, 1053), (0, 33)], [(0, 11069), (0, 710), (0, 40), (0, 2)]], 3, 4⟩, 1099511627776, 0,
    81715004, ⟨[[(38659669785553, 0), (15277524889, 0), (29583230, 0), (8576, 0), (0, 2)], [(7421788561, 0),
    (7486321, 0), (0, 120), (0, 1)], [(0, 2072004), (0, 5888)], [(535, 0), (6, 0)]], 3, 4⟩, 68719476736, 83831,
    3631345682632176311252511055734231152475098572575776817629608711440874533881432782456835173013, ⟨0, 3,
    506550556300350, [74132302407, 10482509, 1976]⟩⟩)) (.leaf ⟨559, 16, 82, 1927, 16, 964, ⟨[[(0, 412316860416)],
    [(352187318272, 0)]], 3, 4⟩, ⟨[[(0, 276462160924), (0, 1852114018219), (0, 9074524426), (0, 136550052), (0,
    2801873)], [(0, 228255400775), (0, 2007567927), (0, 37334525), (0, 975720), (0, 26908)], [(0, 41417212), (0,
    2952055), (0, 118594), (0, 4477), (0, 139)], [(0, 77230), (0, 5927), (0, 350), (0, 15)]], 3, 4⟩, 1099511627776,
    0, 1083016745, ⟨[[(38433455333532, 0), (23066565685, 0), (72204856, 0), (33287, 0), (0, 12)], [(14944626017, 0),
    (24194829, 0), (0, 511), (0, 5)], [(0, 8296510), (0, 39240)], [(3754, 0), (86, 0)]], 3, 4⟩, 68719476736, 900838,
    4986599367887384332414624398942933276046376081645979799548350159123310230894738489050408299689, ⟨0, 3,
    320887485949533, [95892763369, 27492191, 10509]⟩⟩)))))
theorem c80 : checkC job ⟨6, 8, 7, 8, 9, 13⟩ 1 25 lims t80 176 48 32 117 3 256 = true := by decide +kernel

def t81 : CTree :=
  .sy (.sx (.sy (.sx (.out ⟨1149, 16, 162, 3217, 16, 1597, ⟨[[(206158430208, 0)], [(347892350976, 0)]], 1, 1⟩, ⟨[[(0,
    258543864418), (0, 2829903701897)], [(0, 167705060600), (0, 1144823006)]], 1, 1⟩, 1099511627776, 0, 197417441637,
    ⟨[], 0, 0⟩, 0, 0, 0, ⟨0, 3, 542802823072455, [76280645063]⟩⟩ 0 1 423) (.leaf ⟨1201, 16, 165, 3156, 16, 1574,
    ⟨[[(446676598784, 0)], [(354334801920, 0)]], 3, 4⟩, ⟨[[(0, 66456569874), (0, 2902586293668), (0, 11221233291),
    (0, 124827732), (0, 1985649)], [(0, 166864916630), (0, 1238217312), (0, 16899946), (0, 324403), (0, 8009)], [(0,
    9308215), (0, 625774), (0, 18281), (0, 604), (0, 19)], [(0, 8001), (0, 413), (0, 21), (0, 1)]], 3, 4⟩,
    1099511627776, 0, 48772340, ⟨[[(39131293607103, 0), (15180128811, 0), (27295173, 0), (7538, 0), (0, 2)],
    [(7186706109, 0), (6558494, 0), (0, 119), (0, 1)], [(0, 1976510), (0, 4681)], [(597, 0), (5, 0)]], 3, 4⟩,
    68719476736, 88844,
    4335309510432887759975886804100467257843563677142377162073732153095012324597217739563385335707, ⟨0, 3,
    542109114672402, [73246032448, 9823770, 1757]⟩⟩)) (.leaf ⟨589, 16, 82, 2038, 16, 1019, ⟨[[(412316860416, 0)],
    [(352187318272, 0)]], 3, 4⟩, ⟨[[(0, 486326173706), (0, 1931532635763), (0, 8336516398), (0, 106581242), (0,
    1961352)], [(0, 224942842184), (0, 1813156284), (0, 28450232), (0, 645374), (0, 17241)], [(0, 31864075), (0,
    2137344), (0, 73831), (0, 2665), (0, 84)], [(0, 54002), (0, 3436), (0, 194), (0, 8)]], 3, 4⟩, 1099511627776, 0,
    611878403, ⟨[[(38898265629122, 0), (22613549544, 0), (64695591, 0), (28017, 0), (0, 10)], [(14479734354, 0),
    (20861543, 0), (0, 495), (0, 4)], [(0, 7957697), (0, 30700)], [(4472, 0), (63, 0)]], 3, 4⟩, 68719476736, 498863,
    4367619648421758328716299490738362858645626662021775033805719217461442123802273361854475217826, ⟨0, 3,
    348667925027693, [96075276205, 26107412, 9459]⟩⟩)) (.sy (.leaf ⟨620, 16, 82, 2027, 16, 1018, ⟨[[(137438953472,
    0)], [(352187318272, 0)]], 3, 4⟩, ⟨[[(0, 140298889874), (0, 2001897469169), (0, 9125231292), (0, 121133486), (0,
    2352973)], [(0, 220005821639), (0, 1874436131), (0, 30815131), (0, 736938), (0, 20474)], [(0, 34148115), (0,
    2221795), (0, 80530), (0, 3002), (0, 97)], [(0, 52920), (0, 3592), (0, 207), (0, 9)]], 3, 4⟩, 1099511627776, 0,
    604313970, ⟨[[(39135556604046, 0), (22095630203, 0), (64046822, 0), (28338, 0), (0, 10)], [(13827212991, 0),
    (19151529, 0), (0, 416), (0, 4)], [(0, 7298927), (0, 25573)], [(4250, 0), (49, 0)]], 3, 4⟩, 68719476736, 337294,
    3877689926279599739869299211006344286651415044245364266981835517174063553604687570428396904381, ⟨0, 3,
    357307610362478, [91221604274, 23559299, 8113]⟩⟩) (.sx (.leaf ⟨1232, 16, 165, 2858, 16, 1440, ⟨[[(377957122048,
    0)], [(354334801920, 0)]], 3, 4⟩, ⟨[[(350644984829, 0), (0, 2931784955425), (0, 15337495710), (0, 241054548), (0,
    5315509)], [(0, 162838432371), (0, 1544581031), (0, 30288552), (0, 843284), (0, 24568)], [(0, 16080640), (0,
    1107831), (0, 46880), (0, 1847), (0, 60)], [(0, 13149), (0, 1074), (0, 65), (0, 3)]], 3, 4⟩, 1099511627776, 0,
    123277290, ⟨[[(38887122842388, 0), (14923757870, 0), (31730306, 0), (10116, 0), (0, 3)], [(6864493417, 0),
    (6872333, 0), (0, 85), (0, 1)], [(0, 1783624), (0, 4668)], [(474, 0), (4, 0)]], 3, 4⟩, 68719476736, 119357,
    2780540305711707767468724605660252351648635431560711162054822265219872363859913971913234142909, ⟨0, 3,
    502309072928274, [65328079213, 8541851, 1489]⟩⟩) (.leaf ⟨1263, 16, 165, 2725, 16, 1380, ⟨[[(309237645312, 0)],
    [(354334801920, 0)]], 3, 4⟩, ⟨[[(502528449076, 0), (0, 2962519600744), (0, 17960851088), (0, 327625141), (0,
    7969223)], [(0, 159391964641), (0, 1716604759), (0, 39657495), (0, 1236211), (0, 37392)], [(0, 19544624), (0,
    1424217), (0, 67398), (0, 2759), (0, 90)], [(0, 16351), (0, 1522), (0, 96), (0, 4)]], 3, 4⟩, 1099511627776, 0,
    176049017, ⟨[[(38885132617176, 0), (14835531903, 0), (34063900, 0), (11645, 0), (0, 3)], [(6659497715, 0),
    (6884472, 0), (0, 72), (0, 1)], [(0, 1676735), (0, 4458)], [(431, 0), (4, 0)]], 3, 4⟩, 68719476736, 75881,
    4420215097250436104545275278897742071310497437221593399878927224697156814115892805877103050988, ⟨0, 3,
    487315509195207, [61072865890, 7789906, 1325]⟩⟩)))) (.sx (.sy (.leaf ⟨589, 16, 82, 1907, 16, 959,
    ⟨[[(412316860416, 0)], [(352187318272, 0)]], 3, 4⟩, ⟨[[(423277516554, 0), (0, 1924675350888), (0, 10153196394),
    (0, 162986300), (0, 3585366)], [(0, 223055970983), (0, 2110351019), (0, 42267628), (0, 1184875), (0, 34098)],
    [(0, 45220725), (0, 3200086), (0, 137113), (0, 5367), (0, 170)], [(0, 78877), (0, 6544), (0, 397), (0, 17), (0,
    1)]], 3, 4⟩, 1099511627776, 0, 1130261475, ⟨[[(38642746989147, 0), (22433664381, 0), (71926035, 0), (34157, 0),
    (0, 12)], [(14235838867, 0), (22177329, 0), (0, 408), (0, 4)], [(0, 7598930), (0, 32610)], [(3740, 0), (67, 0)]],
    3, 4⟩, 68719476736, 630162,
    4724074425803539064510401554561977451734932977291093294784852545417739773726993140750553903188, ⟨0, 3,
    328137919628613, [90418243259, 24570175, 8902]⟩⟩) (.sx (.sy (.leaf ⟨1170, 16, 165, 3755, 16, 1891,
    ⟨[[(515396075520, 0)], [(354334801920, 0)]], 3, 4⟩, ⟨[[(139884315628, 0), (0, 1940525210574), (0, 5659914417),
    (0, 50372482), (0, 585380)], [(0, 227456348305), (0, 1165137310), (0, 13104707), (0, 197130), (0, 2873)], [(0,
    27148195), (0, 1008673), (0, 23279), (0, 463), (0, 7)], [(0, 25057), (0, 1138), (0, 35), (0, 1)]], 3, 4⟩,
    1099511627776, 0, 148889210, ⟨[[(38475465083959, 0), (11095092697, 0), (18428276, 0), (4476, 0), (0, 1)],
    [(7101730009, 0), (5716890, 0), (0, 47)], [(0, 1874534), (0, 4279)], [(416, 0), (4, 0)]], 3, 4⟩, 68719476736,
    93346, 2582568243870491352896072977534798283353313861352591113297635657219865161096121680108005539874, ⟨0, 3,
    642730205654359, [90323544029, 12434409, 2282]⟩⟩) (.sx (.leaf ⟨2325, 16, 330, 5449, 16, 2748, ⟨[[(515396075520,
    0)], [(354334801920, 0)]], 3, 4⟩, ⟨[[(0, 326531868331), (0, 2881513352402), (0, 9170986335), (0, 88341007), (0,
    1065497)], [(0, 169575632118), (0, 933395908), (0, 11509162), (0, 181576), (0, 2666)], [(0, 11568669), (0,
    447672), (0, 10860), (0, 218), (0, 3)], [(0, 5586), (0, 269), (0, 8)]], 3, 4⟩, 1099511627776, 0, 22119706,
    ⟨[[(38363577386369, 0), (7470034962, 0), (8692497, 0), (1465, 0)], [(3549513643, 0), (1989508, 0), (0, 10)], [(0,
    465092), (0, 753)], [(47, 0)]], 3, 4⟩, 68719476736, 48021,
    3616629549331141575082363466783406916879707258001546415089850871257636178276079295715485881327, ⟨0, 3,
    930854477973425, [66065615362, 4577717, 423]⟩⟩) (.skip))) (.sy (.sx (.leaf ⟨2387, 16, 330, 5384, 16, 2722,
    ⟨[[(377957122048, 0)], [(354334801920, 0)]], 3, 4⟩, ⟨[[(0, 351130205179), (0, 2922233920283), (0, 9699571145),
    (0, 96835438), (0, 1201767)], [(0, 166822350111), (0, 957305788), (0, 12284488), (0, 199326), (0, 2973)], [(0,
    11955005), (0, 466981), (0, 11613), (0, 236), (0, 4)], [(0, 5670), (0, 281), (0, 9)]], 3, 4⟩, 1099511627776, 0,
    22625222, ⟨[[(38480441002330, 0), (7425695465, 0), (8797794, 0), (1515, 0)], [(3466617541, 0), (1918832, 0), (0,
    9)], [(0, 446398), (0, 692)], [(49, 0)]], 3, 4⟩, 68719476736, 45791,
    4573809341782646763850688539461536141675988544339794173729507783509885573793848286489310634633, ⟨0, 3,
    934447601328027, [63744457278, 4302407, 387]⟩⟩) (.skip)) (.skip)))) (.sy (.sx (.sy (.leaf ⟨1232, 16, 165, 3714,
    16, 1879, ⟨[[(377957122048, 0)], [(354334801920, 0)]], 3, 4⟩, ⟨[[(0, 379741338928), (0, 2013848775659), (0,
    6317809576), (0, 59849552), (0, 734696)], [(0, 222466512301), (0, 1225779924), (0, 14781293), (0, 234570), (0,
    3528)], [(0, 28982361), (0, 1087736), (0, 26315), (0, 538), (0, 9)], [(0, 25587), (0, 1224), (0, 38), (0, 1)]],
    3, 4⟩, 1099511627776, 0, 151191346, ⟨[[(38716557585173, 0), (10870260674, 0), (18425573, 0), (4607, 0), (0, 1)],
    [(6783938421, 0), (5268076, 0), (0, 39)], [(0, 1728925), (0, 3576)], [(421, 0), (3, 0)]], 3, 4⟩, 68719476736,
    78016, 3506323828292578247575976875504474435217339005524329829641966439069603680675308172167000927069, ⟨0, 3,
    655443575022379, [85244070029, 11145930, 1943]⟩⟩) (.skip)) (.skip)) (.skip)))
theorem c81 : checkC job ⟨6, 8, 7, 8, 9, 13⟩ 1 25 lims t81 944 48 128 117 3 256 = true := by decide +kernel

def t82 : CTree :=
  .sy (.sx (.sy (.sx (.leaf ⟨1294, 16, 165, 2813, 16, 1423, ⟨[[(240518168576, 0)], [(354334801920, 0)]], 3, 4⟩,
    ⟨[[(0, 164331781020), (0, 3005241212214), (0, 16567765787), (0, 270855944), (0, 6239452)], [(0, 157842042140),
    (0, 1580920442), (0, 32443954), (0, 940897), (0, 28200)], [(0, 16625145), (0, 1137455), (0, 49831), (0, 2010),
    (0, 66)], [(0, 12808), (0, 1089), (0, 67), (0, 3)]], 3, 4⟩, 1099511627776, 0, 128274003, ⟨[[(39135377032934, 0),
    (14788477159, 0), (32132356, 0), (10573, 0), (0, 3)], [(6576637962, 0), (6419093, 0), (0, 76)], [(0, 1648199),
    (0, 3971)], [(456, 0), (4, 0)]], 3, 4⟩, 68719476736, 96569,
    3265931158205108019358314312357794747741932887773344114580708244546766800671590975713136399250, ⟨0, 3,
    508472818707288, [61470461919, 7653195, 1270]⟩⟩) (.leaf ⟨1325, 16, 165, 2679, 16, 1362, ⟨[[(171798691840, 0)],
    [(354334801920, 0)]], 3, 4⟩, ⟨[[(0, 69242584360), (0, 3032726723583), (0, 19341638784), (0, 366261017), (0,
    9240331)], [(0, 154500120584), (0, 1754979888), (0, 42264752), (0, 1361757), (0, 42199)], [(0, 19930324), (0,
    1453224), (0, 70657), (0, 2952), (0, 98)], [(0, 15867), (0, 1520), (0, 97), (0, 4)]], 3, 4⟩, 1099511627776, 0,
    182792606, ⟨[[(39133961083093, 0), (14720402378, 0), (34584193, 0), (12223, 0), (0, 3)], [(6389101805, 0),
    (6461798, 0), (0, 67)], [(0, 1554245), (0, 3818)], [(417, 0), (3, 0)]], 3, 4⟩, 68719476736, 96600,
    4491354104165031408913881857843173211006137602051792349811734107186267747964240061277338005809, ⟨0, 3,
    492257768459643, [57461807418, 6987087, 1133]⟩⟩)) (.sx (.sy (.leaf ⟨1294, 16, 165, 3678, 16, 1869,
    ⟨[[(240518168576, 0)], [(354334801920, 0)]], 3, 4⟩, ⟨[[(0, 140208492266), (0, 2084022829132), (0, 6941404198),
    (0, 68947459), (0, 882382)], [(0, 217649788217), (0, 1275354647), (0, 16201503), (0, 267321), (0, 4126)], [(0,
    30164686), (0, 1140094), (0, 28504), (0, 595), (0, 10)], [(0, 25473), (0, 1261), (0, 40), (0, 1)]], 3, 4⟩,
    1099511627776, 0, 147767210, ⟨[[(38952973318086, 0), (10642870901, 0), (18391870, 0), (4729, 0), (0, 1)],
    [(6495218614, 0), (4888599, 0), (0, 34)], [(0, 1597852), (0, 3022)], [(411, 0), (3, 0)]], 3, 4⟩, 68719476736,
    52531, 4244524829701491759643960091017461969043751099905250746142110166505950892487412660887671652857, ⟨0, 3,
    667839563010486, [80736678375, 10051877, 1669]⟩⟩) (.sx (.sy (.leaf ⟨2573, 16, 330, 7285, 16, 3706, ⟨[[(0,
    34359738368)], [(354334801920, 0)]], 3, 4⟩, ⟨[[(268057766159, 0), (0, 2099171538675), (0, 3728943679), (0,
    19628344), (0, 128529)], [(0, 220171322665), (0, 680566872), (0, 4619536), (0, 39291), (0, 304)], [(0, 16710735),
    (0, 327453), (0, 4228), (0, 44)], [(0, 7354), (0, 189), (0, 3)]], 3, 4⟩, 1099511627776, 0, 20283282,
    ⟨[[(38861533822849, 0), (5273824966, 0), (4663146, 0), (609, 0)], [(3249639528, 0), (1244317, 0), (0, 4)], [(0,
    398642), (0, 389)], [(49, 0)]], 3, 4⟩, 68719476736, 21976,
    4109325835612071566441028333383076048740671661791137592846453329882376790303943750464909690090, ⟨0, 3,
    1320391029546867, [80526749212, 5043008, 421]⟩⟩) (.skip)) (.skip))) (.sy (.sx (.sy (.leaf ⟨2635, 16, 330, 7252,
    16, 3697, ⟨[[(0, 171798691840)], [(354334801920, 0)]], 3, 4⟩, ⟨[[(470866536232, 0), (0, 2134382001959), (0,
    3894698333), (0, 20908538), (0, 139255)], [(0, 217858793456), (0, 692626652), (0, 4802122), (0, 41477), (0,
    325)], [(0, 16926166), (0, 332816), (0, 4352), (0, 46)], [(0, 7291), (0, 190), (0, 3)]], 3, 4⟩, 1099511627776, 0,
    19943231, ⟨[[(38980494826630, 0), (5219514520, 0), (4657402, 0), (616, 0)], [(3182399609, 0), (1201106, 0), (0,
    4)], [(0, 383781), (0, 359)], [(49, 0)]], 3, 4⟩, 68719476736, 20167,
    4325998496481132329048633991423055346066246937527889171205811201020594451493590466205600500726, ⟨0, 3,
    1332425522607024, [78444743715, 4797257, 391]⟩⟩) (.skip)) (.skip)) (.skip)))) (.sy (.sy (.sx (.leaf ⟨1356, 16,
    165, 3652, 16, 1863, ⟨[[(103079215104, 0)], [(354334801920, 0)]], 3, 4⟩, ⟨[[(0, 441972789289), (0,
    2152316470973), (0, 7505834097), (0, 76955228), (0, 1015654)], [(0, 213126608593), (0, 1311934089), (0,
    17251109), (0, 292415), (0, 4614)], [(0, 30709815), (0, 1161991), (0, 29680), (0, 632), (0, 11)], [(0, 24729),
    (0, 1252), (0, 41), (0, 1)]], 3, 4⟩, 1099511627776, 0, 140151890, ⟨[[(39197652877122, 0), (10447706984, 0),
    (18304220, 0), (4820, 0), (0, 1)], [(6237210059, 0), (4558634, 0), (0, 32)], [(0, 1483117), (0, 2577)], [(395,
    0), (2, 0)]], 3, 4⟩, 68719476736, 33747,
    4364146754276096824119856311094114012072151055526679589602144379832293838531380121008929581107, ⟨0, 3,
    680789297261305, [76805514803, 9126131, 1446]⟩⟩) (.sy (.sx (.leaf ⟨2759, 16, 330, 7203, 16, 3686, ⟨[[(0,
    446676598784)], [(354334801920, 0)]], 3, 4⟩, ⟨[[(0, 84501744653), (0, 2203304887285), (0, 4194068355), (0,
    23146849), (0, 158420)], [(0, 213444059056), (0, 710608595), (0, 5073336), (0, 44854), (0, 359)], [(0, 17090127),
    (0, 336481), (0, 4481), (0, 48)], [(0, 7029), (0, 186), (0, 3)]], 3, 4⟩, 1099511627776, 0, 18806408,
    ⟨[[(39225303578709, 0), (5123699408, 0), (4633361, 0), (628, 0)], [(3058726143, 0), (1122491, 0), (0, 4)], [(0,
    356857), (0, 307)], [(47, 0)]], 3, 4⟩, 68719476736, 15744,
    4290959148725381875948584643906896018275197982450700133102670412742614242595403863858442854468, ⟨0, 3,
    1357810251601463, [74702794256, 4363481, 340]⟩⟩) (.skip)) (.skip))) (.sx (.sy (.sx (.leaf ⟨2697, 16, 330, 7224,
    16, 3690, ⟨[[(0, 309237645312)], [(354334801920, 0)]], 3, 4⟩, ⟨[[(382360044726, 0), (0, 2168924053107), (0,
    4049997047), (0, 22087634), (0, 149283)], [(0, 215600694243), (0, 702617979), (0, 4953884), (0, 43341), (0,
    343)], [(0, 17050199), (0, 335796), (0, 4437), (0, 47)], [(0, 7181), (0, 189), (0, 3)]], 3, 4⟩, 1099511627776, 0,
    19398369, ⟨[[(39101626787100, 0), (5169651063, 0), (4648252, 0), (623, 0)], [(3118816678, 0), (1160701, 0), (0,
    4)], [(0, 369871), (0, 331)], [(48, 0)]], 3, 4⟩, 68719476736, 18465,
    4385094687349382984880966418073957619133168635350172595799621362104465064486775948119494606224, ⟨0, 3,
    1344761749538590, [76499742855, 4570969, 364]⟩⟩) (.skip)) (.skip)) (.skip))) (.skip))) (.skip)
theorem c82 : checkC job ⟨6, 8, 7, 8, 9, 13⟩ 1 25 lims t82 1040 48 128 117 3 256 = true := by decide +kernel

def t83 : CTree :=
  .skip
theorem c83 : checkC job ⟨6, 8, 7, 8, 9, 13⟩ 1 25 lims t83 592 48 64 117 3 256 = true := by decide +kernel

def t84 : CTree :=
  .sy (.sx (.sy (.sx (.sx (.sy (.sx (.sy (.sx (.sy (.leaf ⟨1665, 16, 165, 4337, 16, 2259, ⟨[[(515396075520, 0)],
    [(354334801920, 0)]], 3, 4⟩, ⟨[[(0, 89251119497), (0, 1596752135291), (0, 3766746820), (0, 23492412), (0,
    179011)], [(0, 248853761627), (0, 1039444301), (0, 8509001), (0, 83116), (0, 732)], [(0, 46359344), (0, 945084),
    (0, 13758), (0, 163), (0, 2)], [(0, 32772), (0, 958), (0, 17)]], 3, 4⟩, 1099511627776, 0, 155658740,
    ⟨[[(40218756375102, 0), (7414313372, 0), (11678108, 0), (2887, 0), (0, 1)], [(5173933554, 0), (2825170, 0), (0,
    32)], [(0, 1036281), (0, 1082)], [(270, 0), (1, 0)]], 3, 4⟩, 68719476736, 62961,
    3660433779946281517189748638723962320527283415278741298108517769668636506170533006325238366764, ⟨0, 3,
    906032217917681, [75831388233, 7336628, 946]⟩⟩) (.sx (.leaf ⟨3315, 16, 330, 6668, 16, 3476, ⟨[[(515396075520,
    0)], [(354334801920, 0)]], 3, 4⟩, ⟨[[(325993303604, 0), (0, 2489146794745), (0, 6149469655), (0, 39885215), (0,
    307827)], [(0, 194618170982), (0, 845530652), (0, 7227051), (0, 71869), (0, 633)], [(0, 19172413), (0, 402809),
    (0, 5982), (0, 71), (0, 1)], [(0, 7017), (0, 210), (0, 4)]], 3, 4⟩, 1099511627776, 0, 18496193,
    ⟨[[(40153668539352, 0), (4750563273, 0), (4919290, 0), (794, 0)], [(2589693217, 0), (923400, 0), (0, 7)], [(0,
    259615), (0, 178)], [(34, 0)]], 3, 4⟩, 68719476736, 16697,
    4300524875999550701637082713862309534069044063718788081794453453212065627774455241480494349141, ⟨0, 3,
    1391335589593927, [58614368843, 2848677, 185]⟩⟩) (.skip))) (.sy (.sx (.sy (.leaf ⟨3377, 16, 330, 8483, 16, 4433,
    ⟨[[(377957122048, 0)], [(354334801920, 0)]], 3, 4⟩, ⟨[[(0, 338323179850), (0, 1632402818095), (0, 2121339781),
    (0, 7115188), (0, 27964)], [(0, 249528366395), (0, 569196019), (0, 2527626), (0, 12835), (0, 57)], [(0,
    25759269), (0, 277045), (0, 2103), (0, 13)], [(0, 9496), (0, 145), (0, 1)]], 3, 4⟩, 1099511627776, 0, 22824172,
    ⟨[[(40236104679583, 0), (3643998159, 0), (3000299, 0), (386, 0)], [(2543166782, 0), (707408, 0), (0, 5)], [(0,
    250680), (0, 132)], [(32, 0)]], 3, 4⟩, 68719476736, 10325,
    4115976471118345269769913180031398583579806533498648184515637075507726679469848738069586983017, ⟨0, 3,
    1788613249368551, [73382369234, 3501067, 223]⟩⟩) (.skip)) (.skip)) (.skip))) (.skip)) (.skip)) (.skip)) (.skip))
    (.skip)) (.skip)) (.skip)) (.skip)
theorem c84 : checkC job ⟨6, 8, 7, 8, 9, 13⟩ 1 25 lims t84 208 48 16 57 3 128 = true := by decide +kernel

def t85 : CTree :=
  .sx (.sx (.out ⟨339, 16, 81, 1304, 16, 614, ⟨[[(206158430208, 0)], [(347892350976, 0)]], 1, 1⟩, ⟨[[(164021378358,
    0), (0, 2953718537499)], [(0, 157389376211), (0, 1869194616)]], 1, 1⟩, 1099511627776, 0, 472099494390, ⟨[], 0,
    0⟩, 0, 0, 0, ⟨0, 2, 152545070656011, [99363954314]⟩⟩ 0 1 3623) (.out ⟨370, 16, 81, 1259, 16, 599, ⟨[[(0,
    481036337152)], [(347892350976, 0)]], 1, 1⟩, ⟨[[(89764321662, 0), (0, 3070552063984)], [(0, 149306261517), (0,
    2126719459)]], 1, 1⟩, 1099511627776, 0, 511057612756, ⟨[], 0, 0⟩, 0, 0, 0, ⟨0, 2, 157730938069006,
    [88969112901]⟩⟩ 0 1 2981)) (.sx (.sy (.out ⟨400, 16, 81, 1760, 16, 843, ⟨[[(0, 68719476736)], [(347892350976,
    0)]], 1, 1⟩, ⟨[[(33203918126, 0), (0, 2263950167117)], [(0, 201697638437), (0, 1595876170)]], 1, 1⟩,
    1099511627776, 0, 401842561267, ⟨[], 0, 0⟩, 0, 0, 0, ⟨0, 2, 233533646732154, [115700645355]⟩⟩ 0 1 2570) (.out
    ⟨400, 16, 81, 1656, 16, 799, ⟨[[(0, 68719476736)], [(347892350976, 0)]], 1, 1⟩, ⟨[[(192198694318, 0), (0,
    2254621707698)], [(0, 201290679501), (0, 1886559966)]], 1, 1⟩, 1099511627776, 0, 446269434811, ⟨[], 0, 0⟩, 0, 0,
    0, ⟨0, 2, 221344464696312, [109661703011]⟩⟩ 0 1 2125)) (.sy (.out ⟨430, 16, 81, 1697, 16, 821, ⟨[[(343597383680,
    0)], [(347892350976, 0)]], 1, 1⟩, ⟨[[(48103442828, 0), (0, 2367220198889)], [(0, 194579817732), (0,
    1840323884)]], 1, 1⟩, 1099511627776, 0, 413179301037, ⟨[], 0, 0⟩, 0, 0, 0, ⟨0, 2, 237865343650951,
    [104727208947]⟩⟩ 0 1 1962) (.out ⟨430, 16, 81, 1575, 16, 768, ⟨[[(343597383680, 0)], [(347892350976, 0)]], 1, 1⟩,
    ⟨[[(34462950395, 0), (0, 2360253864312)], [(0, 193756924667), (0, 2232915384)]], 1, 1⟩, 1099511627776, 0,
    483398142760, ⟨[], 0, 0⟩, 0, 0, 0, ⟨0, 2, 222509846435968, [97966499965]⟩⟩ 0 1 1487)))
theorem c85 : checkC job ⟨6, 8, 7, 8, 9, 13⟩ 1 25 lims t85 304 48 64 123 3 256 = true := by decide +kernel

def t86 : CTree :=
  .sx (.sy (.sx (.out ⟨461, 16, 81, 1617, 16, 790, ⟨[[(0, 343597383680)], [(347892350976, 0)]], 1, 1⟩, ⟨[[(0,
    417051517874), (0, 2464347428689)], [(0, 187517582804), (0, 2132505516)]], 1, 1⟩, 1099511627776, 0, 444887131584,
    ⟨[], 0, 0⟩, 0, 0, 0, ⟨0, 3, 238231838800017, [94128469446]⟩⟩ 0 1 1372) (.out ⟨491, 16, 81, 1519, 16, 750,
    ⟨[[(68719476736, 0)], [(347892350976, 0)]], 1, 1⟩, ⟨[[(148555103194, 0), (0, 2555539445972)], [(0, 180419995514),
    (0, 2505777403)]], 1, 1⟩, 1099511627776, 0, 510117353581, ⟨[], 0, 0⟩, 0, 0, 0, ⟨0, 3, 234477294471307,
    [83834895468]⟩⟩ 0 1 743)) (.sx (.out ⟨461, 16, 81, 1473, 16, 726, ⟨[[(0, 343597383680)], [(347892350976, 0)]], 1,
    1⟩, ⟨[[(0, 220508495869), (0, 2459748539271)], [(0, 186057518707), (0, 2694397285)]], 1, 1⟩, 1099511627776, 0,
    566638774464, ⟨[], 0, 0⟩, 0, 0, 0, ⟨0, 3, 218932044264320, [86502871921]⟩⟩ 0 1 848) (.sy (.sx (.out ⟨967, 16,
    162, 2890, 16, 1433, ⟨[[(0, 68719476736)], [(347892350976, 0)]], 1, 1⟩, ⟨[[(0, 167221413576), (0,
    2565218818425)], [(0, 183223036954), (0, 1490710034)]], 1, 1⟩, 1099511627776, 0, 269769859983, ⟨[], 0, 0⟩, 0, 0,
    0, ⟨0, 3, 444133583412120, [81348232495]⟩⟩ 0 1 492) (.leaf ⟨1016, 16, 165, 2781, 16, 1387, ⟨[[(0, 240518168576)],
    [(354334801920, 0)]], 3, 4⟩, ⟨[[(506026092063, 0), (0, 2632990185768), (0, 14429483625), (0, 242634871), (0,
    5058362)], [(0, 180686258992), (0, 1698382601), (0, 35940625), (0, 985525), (0, 26360)], [(0, 20354661), (0,
    1564370), (0, 67018), (0, 2489), (0, 74)], [(0, 22432), (0, 1884), (0, 110), (0, 5)]], 3, 4⟩, 1099511627776, 0,
    210563844, ⟨[[(37729843653124, 0), (15623300756, 0), (35176103, 0), (11183, 0), (0, 2)], [(7971323142, 0),
    (10128815, 0), (0, 132), (0, 1)], [(0, 2228456), (0, 9824)], [(156, 0), (12, 0)]], 3, 4⟩, 68719476736, 167807,
    3627040245485083790744469129199131362028348828478317753792334390160553337639171163795479928212, ⟨0, 3,
    437319127714839, [76338835880, 12109587, 2561]⟩⟩)) (.sx (.sy (.out ⟨967, 16, 162, 3616, 16, 1800, ⟨[[(0,
    68719476736)], [(347892350976, 0)]], 1, 1⟩, ⟨[[(520305256367, 0), (0, 1685735639811)], [(0, 239329985950), (0,
    1114484196)]], 1, 1⟩, 1099511627776, 0, 240761860659, ⟨[], 0, 0⟩, 0, 0, 0, ⟨0, 3, 557878890538602,
    [102182008717]⟩⟩ 0 2 524) (.skip)) (.skip))))) (.sy (.sx (.sy (.sx (.out ⟨1028, 16, 162, 2994, 16, 1486, ⟨[[(0,
    343597383680)], [(347892350976, 0)]], 1, 1⟩, ⟨[[(0, 395388256221), (0, 2656926683196)], [(0, 177908532823), (0,
    1361359429)]], 1, 1⟩, 1099511627776, 0, 241719508771, ⟨[], 0, 0⟩, 0, 0, 0, ⟨0, 3, 476268109937030,
    [79370308719]⟩⟩ 0 1 435) (.leaf ⟨1078, 16, 165, 2904, 16, 1449, ⟨[[(0, 377957122048)], [(354334801920, 0)]], 3,
    4⟩, ⟨[[(0, 169902727258), (0, 2727037200172), (0, 13227270642), (0, 198660572), (0, 3979334)], [(0,
    176113941905), (0, 1520300679), (0, 28158515), (0, 722852), (0, 19457)], [(0, 15821331), (0, 1153736), (0,
    45761), (0, 1696), (0, 52)], [(0, 15749), (0, 1191), (0, 70), (0, 3)]], 3, 4⟩, 1099511627776, 0, 133460897,
    ⟨[[(38195231479801, 0), (15437780270, 0), (32184102, 0), (9770, 0), (0, 2)], [(7686603932, 0), (8650802, 0), (0,
    124), (0, 1)], [(0, 2162663), (0, 7541)], [(405, 0), (9, 0)]], 3, 4⟩, 68719476736, 125020,
    3341985203741934097482308421129708181765062054470635275838433161443116013802785309204378406516, ⟨0, 3,
    471731628992037, [75172223685, 11239866, 2241]⟩⟩)) (.sx (.leaf ⟨1047, 16, 165, 2842, 16, 1418, ⟨[[(0,
    309237645312)], [(354334801920, 0)]], 3, 4⟩, ⟨[[(478465085683, 0), (0, 2680801992037), (0, 13826867042), (0,
    220763985), (0, 4534606)], [(0, 178417931488), (0, 1607027803), (0, 31936214), (0, 852392), (0, 22931)], [(0,
    17981405), (0, 1347645), (0, 55891), (0, 2080), (0, 63)], [(0, 18829), (0, 1511), (0, 89), (0, 4)]], 3, 4⟩,
    1099511627776, 0, 169057151, ⟨[[(37956846481596, 0), (15502191615, 0), (33614685, 0), (10450, 0), (0, 2)],
    [(7822959554, 0), (9344337, 0), (0, 127), (0, 1)], [(0, 2196600), (0, 8588)], [(296, 0), (10, 0)]], 3, 4⟩,
    68719476736, 138406,
    3321222921092673327880336156138576726110768587730725951943663226033800520574020175888530720789, ⟨0, 3,
    454473876104111, [75738289208, 11659219, 2393]⟩⟩) (.sy (.leaf ⟨1078, 16, 165, 3695, 16, 1851, ⟨[[(0,
    377957122048)], [(354334801920, 0)]], 3, 4⟩, ⟨[[(0, 136963240682), (0, 1826596419535), (0, 5262997560), (0,
    46398371), (0, 514415)], [(0, 234537006534), (0, 1166158281), (0, 13017605), (0, 189224), (0, 2642)], [(0,
    28254432), (0, 1079673), (0, 24357), (0, 469), (0, 7)], [(0, 29155), (0, 1298), (0, 39), (0, 1)]], 3, 4⟩,
    1099511627776, 0, 185004899, ⟨[[(38022236311110, 0), (11509589231, 0), (19515406, 0), (4735, 0), (0, 1)],
    [(7587279725, 0), (6774025, 0), (0, 61)], [(0, 2076102), (0, 5902)], [(306, 0), (7, 0)]], 3, 4⟩, 68719476736,
    127035, 2689702494037344663738218463122289401931307607035792579985356024052846235630169449160056743875, ⟨0, 3,
    602605414261050, [96027457586, 14358172, 2862]⟩⟩) (.skip)))) (.sy (.sx (.leaf ⟨1109, 16, 165, 2769, 16, 1389,
    ⟨[[(0, 446676598784)], [(354334801920, 0)]], 3, 4⟩, ⟨[[(0, 304278765830), (0, 2765344509358), (0, 15741819357),
    (0, 274742441), (0, 6149587)], [(0, 172190372402), (0, 1706381628), (0, 37588156), (0, 1096448), (0, 31024)],
    [(0, 20158254), (0, 1518082), (0, 68440), (0, 2660), (0, 82)], [(0, 19933), (0, 1768), (0, 107), (0, 5)]], 3, 4⟩,
    1099511627776, 0, 195632258, ⟨[[(38197448075339, 0), (15351144053, 0), (34527292, 0), (11220, 0), (0, 3)],
    [(7427446045, 0), (8565083, 0), (0, 103), (0, 1)], [(0, 2016602), (0, 7084)], [(368, 0), (8, 0)]], 3, 4⟩,
    68719476736, 115763,
    4294888379363287590156798339134437427190575258097627278798234536999344838510261219076442896847, ⟨0, 3,
    459018503539476, [70048539355, 10181474, 1973]⟩⟩) (.sy (.leaf ⟨1140, 16, 165, 3637, 16, 1832, ⟨[[(0,
    515396075520)], [(354334801920, 0)]], 3, 4⟩, ⟨[[(0, 70384390804), (0, 1904058400812), (0, 6058947952), (0,
    58320882), (0, 696434)], [(0, 229109537578), (0, 1255176312), (0, 15487556), (0, 242722), (0, 3530)], [(0,
    31520008), (0, 1227993), (0, 29676), (0, 591), (0, 9)], [(0, 31285), (0, 1505), (0, 46), (0, 1)]], 3, 4⟩,
    1099511627776, 0, 200211098, ⟨[[(38251234073101, 0), (11238208143, 0), (19623371, 0), (4934, 0), (0, 1)],
    [(7210075713, 0), (6178934, 0), (0, 47)], [(0, 1905592), (0, 4854)], [(357, 0), (5, 0)]], 3, 4⟩, 68719476736,
    89590, 5235971458935805416152565280078995774676914848199580616632655929694632274094228858428228573383, ⟨0, 3,
    614163215845296, [89881123766, 12709435, 2396]⟩⟩) (.skip))) (.skip))) (.skip))
theorem c86 : checkC job ⟨6, 8, 7, 8, 9, 13⟩ 1 25 lims t86 400 48 64 123 3 256 = true := by decide +kernel

def t87 : CTree :=
  .sx (.sx (.sx (.sy (.out ⟨339, 16, 81, 1677, 16, 797, ⟨[[(206158430208, 0)], [(347892350976, 0)]], 1, 1⟩, ⟨[[(0,
    260883749044), (0, 2019413232877)], [(0, 216788271831), (0, 1596842924)]], 1, 1⟩, 1099511627776, 0, 476428158812,
    ⟨[], 0, 0⟩, 0, 0, 0, ⟨0, 2, 198010458164236, [128978943954]⟩⟩ 0 1 3048) (.out ⟨339, 16, 81, 1584, 16, 758,
    ⟨[[(206158430208, 0)], [(347892350976, 0)]], 1, 1⟩, ⟨[[(0, 11149920824), (0, 2014645642510)], [(0, 216401903283),
    (0, 1918482098)]], 1, 1⟩, 1099511627776, 0, 526170742451, ⟨[], 0, 0⟩, 0, 0, 0, ⟨0, 2, 188321113285434,
    [122667552719]⟩⟩ 0 1 2626)) (.out ⟨370, 16, 81, 1115, 16, 538, ⟨[[(0, 481036337152)], [(347892350976, 0)]], 1,
    1⟩, ⟨[[(118559614133, 0), (0, 3046741311136)], [(0, 148433016792), (0, 3028839844)]], 1, 1⟩, 1099511627776, 0,
    771172794512, ⟨[], 0, 0⟩, 0, 0, 0, ⟨0, 2, 141668188115401, [79908819267]⟩⟩ 0 1 2122)) (.sx (.sy (.sy (.out ⟨400,
    16, 81, 1989, 16, 965, ⟨[[(0, 68719476736)], [(347892350976, 0)]], 1, 1⟩, ⟨[[(0, 153925478846), (0,
    1427123899603)], [(0, 254422839937), (0, 1390167722)]], 1, 1⟩, 1099511627776, 0, 456607050097, ⟨[], 0, 0⟩, 0, 0,
    0, ⟨0, 2, 267330924195170, [132444985489]⟩⟩ 0 1 1790) (.out ⟨400, 16, 81, 1909, 16, 930, ⟨[[(0, 68719476736)],
    [(347892350976, 0)]], 1, 1⟩, ⟨[[(87065976449, 0), (0, 1428740557255)], [(0, 253875579779), (0, 1564695938)]], 1,
    1⟩, 1099511627776, 0, 485551935861, ⟨[], 0, 0⟩, 0, 0, 0, ⟨0, 2, 257634983939387, [127641281353]⟩⟩ 0 1 1543))
    (.out ⟨400, 16, 81, 1391, 16, 682, ⟨[[(0, 68719476736)], [(347892350976, 0)]], 1, 1⟩, ⟨[[(127667539536, 0), (0,
    2250811029587)], [(0, 198031436821), (0, 3038597108)]], 1, 1⟩, 1099511627776, 0, 682762525530, ⟨[], 0, 0⟩, 0, 0,
    0, ⟨0, 2, 188932321555550, [93603606325]⟩⟩ 0 1 1160)) (.sy (.sy (.out ⟨430, 16, 81, 1891, 16, 928,
    ⟨[[(343597383680, 0)], [(347892350976, 0)]], 1, 1⟩, ⟨[[(147133729258, 0), (0, 1517999263132)], [(0,
    247822352119), (0, 1725032263)]], 1, 1⟩, 1099511627776, 0, 477851747167, ⟨[], 0, 0⟩, 0, 0, 0, ⟨0, 2,
    268866064443462, [118376187458]⟩⟩ 0 1 1105) (.sx (.out ⟨845, 16, 162, 2875, 16, 1413, ⟨[[(481036337152, 0)],
    [(347892350976, 0)]], 1, 1⟩, ⟨[[(154063530055, 0), (0, 2361480462403)], [(0, 195835155797), (0, 1479245027)]], 1,
    1⟩, 1099511627776, 0, 280679751863, ⟨[], 0, 0⟩, 0, 0, 0, ⟨0, 2, 405018892820687, [91740475910]⟩⟩ 0 1 1016) (.out
    ⟨876, 16, 162, 2749, 16, 1359, ⟨[[(0, 206158430208)], [(347892350976, 0)]], 1, 1⟩, ⟨[[(0, 348600204718), (0,
    2419964365469)], [(0, 191634008575), (0, 1690436337)]], 1, 1⟩, 1099511627776, 0, 315070781205, ⟨[], 0, 0⟩, 0, 0,
    0, ⟨0, 2, 397862357322586, [85174315416]⟩⟩ 0 1 669))) (.skip)))) (.sx (.sy (.sx (.sy (.sx (.out ⟨906, 16, 162,
    2794, 16, 1383, ⟨[[(206158430208, 0)], [(347892350976, 0)]], 1, 1⟩, ⟨[[(0, 76123945368), (0, 2470036287326)],
    [(0, 188794086014), (0, 1625678571)]], 1, 1⟩, 1099511627776, 0, 300020657594, ⟨[], 0, 0⟩, 0, 0, 0, ⟨0, 2,
    413068714641790, [83773073087]⟩⟩ 0 1 594) (.skip)) (.skip)) (.skip)) (.skip)) (.skip))
theorem c87 : checkC job ⟨6, 8, 7, 8, 9, 13⟩ 1 25 lims t87 176 48 32 129 3 256 = true := by decide +kernel

def t88 : CTree :=
  .sy (.sx (.sx (.sx (.sy (.out ⟨339, 16, 81, 1471, 16, 709, ⟨[[(206158430208, 0)], [(347892350976, 0)]], 1, 1⟩,
    ⟨[[(0, 13190119370), (0, 2011466603921)], [(0, 214855358403), (0, 2407584060)]], 1, 1⟩, 1099511627776, 0,
    613583006823, ⟨[], 0, 0⟩, 0, 0, 0, ⟨0, 2, 176147321001811, [114737856040]⟩⟩ 0 1 2189) (.out ⟨339, 16, 81, 1332,
    16, 647, ⟨[[(206158430208, 0)], [(347892350976, 0)]], 1, 1⟩, ⟨[[(0, 126761766103), (0, 2016040337028)], [(0,
    211955692640), (0, 3206027884)]], 1, 1⟩, 1099511627776, 0, 779824162968, ⟨[], 0, 0⟩, 0, 0, 0, ⟨0, 2,
    160743747091921, [104704362282]⟩⟩ 0 1 1720)) (.sy (.out ⟨370, 16, 81, 1358, 16, 663, ⟨[[(0, 481036337152)],
    [(347892350976, 0)]], 1, 1⟩, ⟨[[(0, 125092311129), (0, 2136474204738)], [(0, 204608964406), (0, 3153366235)]], 1,
    1⟩, 1099511627776, 0, 734236285991, ⟨[], 0, 0⟩, 0, 0, 0, ⟨0, 2, 174583659331804, [98474994747]⟩⟩ 0 1 1414)
    (.skip))) (.skip)) (.skip)) (.skip)
theorem c88 : checkC job ⟨6, 8, 7, 8, 9, 13⟩ 1 25 lims t88 176 48 32 69 3 128 = true := by decide +kernel

def t89 : CTree :=
  .skip
theorem c89 : checkC job ⟨6, 8, 7, 8, 9, 13⟩ 1 25 lims t89 272 48 32 33 3 64 = true := by decide +kernel

def t90 : CTree :=
  .skip
theorem c90 : checkC job ⟨6, 8, 7, 8, 9, 13⟩ 1 25 lims t90 208 48 16 33 3 64 = true := by decide +kernel

def t91 : CTree :=
  .skip
theorem c91 : checkC job ⟨6, 8, 7, 8, 9, 13⟩ 1 25 lims t91 176 48 8 15 3 32 = true := by decide +kernel

def t92 : CTree :=
  .skip
theorem c92 : checkC job ⟨6, 8, 7, 8, 9, 13⟩ 1 25 lims t92 160 48 4 15 3 32 = true := by decide +kernel

def t93 : CTree :=
  .skip
theorem c93 : checkC job ⟨6, 8, 7, 8, 9, 13⟩ 1 25 lims t93 56 48 2 21 3 32 = true := by decide +kernel

def t94 : CTree :=
  .skip
theorem c94 : checkC job ⟨6, 8, 7, 8, 9, 13⟩ 1 25 lims t94 152 48 2 9 3 16 = true := by decide +kernel

end PyX.Kron.S2c
