import Verif.Lemmas.T3aJob

/-!
# The temperature from pressure and enthalpy in subregion 3a, part B of the certificate
-/

namespace PyX.Kron.T3a

set_option Elab.async false

def t27 : CTree :=
  .sy (.sx (.sy (.leaf ⟨308, 16, 353, 431, 16, 1501, ⟨[[(0, 10160424081203200), (0, 1848066087609849), (39419143658,
    0), (0, 391567), (0, 10)], [(28700900546042167, 0), (0, 3250905294597), (54658738, 0), (0, 175)],
    [(60675199004152, 0), (0, 2589348198), (0, 39587), (13, 0)], [(83035137297, 0), (310246, 0), (0, 250)]], 3, 4⟩,
    ⟨[[(25765168611381248, 0), (0, 2257150985106840), (30482119959, 0), (0, 446443), (19, 0)], [(0,
    25645074071740297), (0, 225597715014), (22533032, 0), (0, 1238)], [(18918165751587, 0), (0, 711963681), (0,
    13116), (0, 9)], [(9480862805, 0), (0, 289764), (152, 0)]], 3, 4⟩, 72057594037927936, 11231634131397,
    3870362732940, ⟨[[(16462632350185, 0), (5224147363, 0), (0, 2501775), (1620, 0), (4, 0)], [(4642355792, 0),
    (16638719, 0), (14309, 0), (0, 14)], [(0, 16382942), (0, 64143), (0, 68)], [(58366, 0), (275, 0)]], 3, 4⟩,
    17592186044416, 118240858,
    1789635104190769453562206285952960724243292281790058598723291992221483629523643779679505600571693384957373244462714263932085090,
    lc0⟩) (.leaf ⟨308, 16, 368, 418, 16, 1508, ⟨[[(0, 24362822639034368), (0, 1885649889897461), (40468768808, 0),
    (0, 418622), (1, 0)], [(28233495274773449, 0), (0, 3332179790858), (56092196, 0), (0, 1001)], [(61889622177007,
    0), (0, 2731068684), (0, 22194), (12, 0)], [(86665555672, 0), (93796, 0), (0, 196)]], 3, 4⟩, ⟨[[(0,
    23242901732876288), (0, 2237261261454855), (29972374546, 0), (0, 421281), (7, 0)], [(0, 25872886107786987), (0,
    204733090669), (21157217, 0), (0, 699)], [(18642742728778, 0), (0, 736135744), (0, 28835), (0, 11)],
    [(9419601364, 0), (0, 124539), (180, 0)]], 3, 4⟩, 72057594037927936, 12076289581460, 3892645548754,
    ⟨[[(16326269743883, 0), (5062575132, 0), (0, 2741951), (1509, 0), (4, 0)], [(4616151160, 0), (17086626, 0),
    (16008, 0), (0, 12)], [(0, 16306869), (0, 67078), (0, 79)], [(59521, 0), (293, 0)]], 3, 4⟩, 17592186044416,
    119320526,
    1737559205196592202084860238315645041379295902709930690770166803821151644448917733177771430187731150244948402906874341767600680,
    lc0⟩)) (.sy (.leaf ⟨286, 16, 309, 429, 16, 1543, ⟨[[(0, 35572838592634880), (0, 1741197498983340), (36435855509,
    0), (0, 326822), (0, 24)], [(29984055088601941, 0), (0, 3033490424729), (43581293, 0), (976, 0)],
    [(62789992952368, 0), (0, 2190023718), (0, 69319), (16, 0)], [(80949051769, 0), (974307, 0), (0, 335)]], 3, 4⟩,
    ⟨[[(0, 32528845323894784), (0, 2331363077927397), (32295691943, 0), (0, 528120), (29, 0)], [(0,
    24671562714725717), (0, 295030317151), (22854653, 0), (0, 1989)], [(20886945156056, 0), (0, 772086290), (6005,
    0), (0, 7)], [(13093899519, 0), (0, 350472), (150, 0)]], 3, 4⟩, 72057594037927936, 10007226090704, 3910362009869,
    ⟨[[(16468316943499, 0), (5425563191, 0), (0, 2187263), (1169, 0), (2, 0)], [(4441990852, 0), (15742688, 0),
    (13294, 0), (0, 7)], [(0, 16802554), (0, 62546), (0, 72)], [(60229, 0), (285, 0)]], 3, 4⟩, 17592186044416,
    176164041,
    2921791763480446133287016875622574071609447680856787558575409089990333900212513005165950006086414200043173123079287884737363166,
    lc0⟩) (.leaf ⟨284, 16, 321, 415, 16, 1551, ⟨[[(8957979628318720, 0), (0, 1771082773403767), (37306284163, 0), (0,
    380500), (0, 16)], [(29578045953678178, 0), (0, 3105276613491), (46196432, 0), (210, 0)], [(64070237514663, 0),
    (0, 2335291938), (0, 48197), (15, 0)], [(84517894989, 0), (691405, 0), (0, 291)]], 3, 4⟩, ⟨[[(0,
    31914670686416896), (0, 2311245484081225), (31702426103, 0), (0, 482594), (19, 0)], [(0, 24942802529282444), (0,
    274911842173), (20252961, 0), (0, 1591)], [(20606178261515, 0), (0, 776011821), (0, 6299), (0, 9)],
    [(13025525202, 0), (0, 185388), (182, 0)]], 3, 4⟩, 72057594037927936, 10818799046134, 3890693534735,
    ⟨[[(16324653277860, 0), (5266430280, 0), (0, 2399281), (1077, 0), (2, 0)], [(4446437297, 0), (16249939, 0),
    (14909, 0), (0, 6)], [(0, 16846453), (0, 66206), (0, 84)], [(62552, 0), (307, 0)]], 3, 4⟩, 17592186044416,
    185419898,
    3726779600440637022315112330830181255164275478610580818621842841240778720561233297944159660666667711273310439879361828103481745,
    lc0⟩))) (.sx (.sy (.leaf ⟨307, 16, 384, 404, 16, 1516, ⟨[[(34414717828227072, 0), (0, 1925565829809072),
    (41577720467, 0), (0, 422679), (14, 0)], [(27730146440995127, 0), (0, 3419299725211), (56304880, 0), (0, 1916)],
    [(63145574523900, 0), (0, 2863944023), (0, 5342), (11, 0)], [(90437007322, 0), (0, 72586), (0, 134)]], 3, 4⟩,
    ⟨[[(23704980509241344, 0), (0, 2219196276019379), (29497866349, 0), (0, 422494), (0, 7)], [(0,
    26108172320904155), (0, 184829501192), (20718744, 0), (0, 1)], [(18361326417789, 0), (0, 778311309), (0, 47796),
    (0, 14)], [(9454789884, 0), (71460, 0), (212, 0)]], 3, 4⟩, 72057594037927936, 12908628352398, 3927831433116,
    ⟨[[(16180907242933, 0), (4884781520, 0), (0, 3021128), (1363, 0), (4, 0)], [(4599230869, 0), (17648421, 0),
    (18077, 0), (0, 10)], [(0, 16355768), (0, 70935), (0, 93)], [(61363, 0), (318, 0)]], 3, 4⟩, 17592186044416,
    122813157,
    1988088354462441920147948223622942366686789473964526046413736294162716229144048396388398690864788992058957063451154078991869698,
    lc0⟩) (.leaf ⟨307, 16, 401, 391, 16, 1524, ⟨[[(16742697221685248, 0), (0, 1967544606768942), (42783279051, 0),
    (0, 396748), (30, 0)], [(27179839046806455, 0), (0, 3513389144458), (55082325, 0), (0, 2938)], [(64439753258726,
    0), (0, 2987906888), (10845, 0), (10, 0)], [(94373818253, 0), (0, 177716), (0, 62)]], 3, 4⟩,
    ⟨[[(1703371872555008, 0), (0, 2201461331705581), (28996092890, 0), (0, 453604), (0, 22)], [(0,
    26333945656514731), (0, 164684191123), (21465771, 0), (879, 0)], [(18051530412825, 0), (0, 841616379), (0,
    70515), (0, 16)], [(9597206642, 0), (302660, 0), (248, 0)]], 3, 4⟩, 72057594037927936, 13724404339165,
    3974408060072, ⟨[[(16047509564743, 0), (4716937801, 0), (0, 3300122), (1213, 0), (4, 0)], [(4565179308, 0),
    (18135182, 0), (20132, 0), (0, 9)], [(0, 16314075), (0, 74394), (0, 107)], [(62416, 0), (342, 0)]], 3, 4⟩,
    17592186044416, 123853299,
    2037283375701172092570434290404632507518804054974080336573817238489199344185327458406693557855779433517156433774973626463033961,
    lc0⟩)) (.sy (.sx (.leaf ⟨412, 16, 494, 532, 16, 2052, ⟨[[(23209556771770368, 0), (0, 2619376704232681),
    (55756468807, 0), (0, 605243), (0, 1)], [(20574090523704274, 0), (0, 2315333037065), (35680117, 0), (0, 689)],
    [(23181545527686, 0), (0, 917086846), (0, 7331), (5, 0)], [(15864836593, 0), (56352, 0), (0, 38)]], 3, 4⟩,
    ⟨[[(13259560454946816, 0), (0, 3012742835797982), (40755418447, 0), (0, 589249), (6, 0)], [(0,
    16865942681835316), (0, 158142201322), (12414964, 0), (0, 535)], [(6554804439318, 0), (0, 261457877), (0, 9321),
    (0, 4)], [(2012006632, 0), (6456, 0), (36, 0)]], 3, 4⟩, 72057594037927936, 1094450213416, 344976785780,
    ⟨[[(16182823168295, 0), (3818643973, 0), (0, 1547796), (448, 0), (1, 0)], [(3127140146, 0), (8943748, 0), (6786,
    0), (0, 2)], [(0, 8171122), (0, 25854), (0, 27)], [(21834, 0), (85, 0)]], 3, 4⟩, 17592186044416, 18471884,
    2947690507525123414922035245700021042484473269978502707402755994374606647150208708093634019059675990313778355674133121388449487,
    lc0⟩) (.leaf ⟨400, 16, 465, 527, 16, 2070, ⟨[[(0, 3265448848773120), (0, 2558660896408550), (53878843951, 0), (0,
    588022), (0, 13)], [(21279750771558516, 0), (0, 2251558076975), (32794086, 0), (0, 211)], [(23755404145276, 0),
    (0, 853423285), (0, 12196), (6, 0)], [(15777845194, 0), (104243, 0), (0, 48)]], 3, 4⟩, ⟨[[(7168770316034048, 0),
    (0, 3046335562010486), (41625037350, 0), (0, 623684), (15, 0)], [(0, 16447235471220977), (0, 181664424566),
    (11926405, 0), (0, 846)], [(6885146743952, 0), (0, 263463735), (0, 4845), (0, 3)], [(2300417743, 0), (0, 2571),
    (36, 0)]], 3, 4⟩, 72057594037927936, 1046163737844, 342010171418, ⟨[[(16184186753684, 0), (3924031155, 0), (0,
    1450602), (390, 0), (1, 0)], [(3024416542, 0), (8631995, 0), (6444, 0), (0, 1)], [(0, 8093609), (0, 25046), (0,
    26)], [(21495, 0), (83, 0)]], 3, 4⟩, 17592186044416, 20357015,
    3815067485480019349393643626501497471519726599027061690165706681399041360685231713665104450206800194813657734446259356589109121,
    lc0⟩)) (.sx (.leaf ⟨409, 16, 512, 515, 16, 2068, ⟨[[(0, 26388639126859776), (0, 2657272637318203), (56851653167,
    0), (0, 609724), (19, 0)], [(20128314092691471, 0), (0, 2363271803659), (35417333, 0), (0, 1365)],
    [(23547799698223, 0), (0, 954272214), (0, 4), (5, 0)], [(16463236849, 0), (24655, 0), (0, 27)]], 3, 4⟩,
    ⟨[[(23333815634821120, 0), (0, 2995444479157658), (40179634341, 0), (0, 598706), (0, 11)], [(0,
    17074358030150187), (0, 147103606663), (12057944, 0), (0, 45)], [(6470755282959, 0), (0, 276060200), (0, 15824),
    (0, 5)], [(2040708722, 0), (46437, 0), (43, 0)]], 3, 4⟩, 72057594037927936, 1160440279747, 351138398180,
    ⟨[[(16048449217872, 0), (3696974249, 0), (0, 1675771), (390, 0), (1, 0)], [(3114183771, 0), (9186238, 0), (7523,
    0), (0, 1)], [(0, 8204593), (0, 27210), (0, 31)], [(22559, 0), (91, 0)]], 3, 4⟩, 17592186044416, 19290993,
    2916064473973080938112050531483587440349171987011824676451875518242294219936321432158211520689006843466607863049209073011934891,
    lc0⟩) (.leaf ⟨395, 16, 481, 510, 16, 2086, ⟨[[(33994047274139648, 0), (0, 2591209762896770), (54804785123, 0),
    (0, 618030), (4, 0)], [(20851284601478848, 0), (0, 2295297895712), (33114590, 0), (0, 857)], [(24127186046243,
    0), (0, 891107759), (0, 4034), (6, 0)], [(16363263922, 0), (63490, 0), (0, 38)]], 3, 4⟩, ⟨[[(0,
    4863975318016000), (0, 3028237040535431), (41015256487, 0), (0, 613755), (0, 1)], [(0, 16663330567986648), (0,
    171542756333), (11051118, 0), (0, 415)], [(6803401256457, 0), (0, 273149468), (0, 10529), (0, 4)], [(2326474125,
    0), (36682, 0), (43, 0)]], 3, 4⟩, 72057594037927936, 1111297010815, 342900440511, ⟨[[(16047232700473, 0),
    (3795802194, 0), (0, 1576092), (339, 0), (1, 0)], [(3038406035, 0), (8935533, 0), (7210, 0), (0, 1)], [(0,
    8221672), (0, 26727), (0, 30)], [(22710, 0), (91, 0)]], 3, 4⟩, 17592186044416, 22066661,
    3795875555072411060804774576848917436786167493712839939491699121991274685503132939709717458639924413858121908513329909458772569,
    lc0⟩))))
theorem c27 : checkR job con0 false ⟨7, 9, 7, 9, 13, 17⟩ 1 30400 t27 537 21 320 14745 251 16000 = true := by decide +kernel

def t28 : CTree :=
  .sy (.sx (.sy (.sx (.leaf ⟨398, 16, 411, 557, 16, 2056, ⟨[[(27603935570722816, 0), (0, 2445902469016664),
    (50182782279, 0), (0, 371600), (0, 49)], [(22735991646852450, 0), (0, 2106832061762), (25352209, 0), (1378, 0)],
    [(23520634563244, 0), (0, 687566916), (0, 35113), (6, 0)], [(14491344880, 0), (271952, 0), (0, 72)]], 3, 4⟩,
    ⟨[[(3460689209696256, 0), (0, 3119888866558853), (44006348975, 0), (0, 796083), (44, 0)], [(0,
    15532753512860395), (0, 229705472454), (15767669, 0), (0, 1595)], [(7409108224706, 0), (0, 269314153), (6508, 0),
    (0, 2)], [(2594091636, 0), (0, 70446), (22, 0)]], 3, 4⟩, 72057594037927936, 857002867994, 334775953574,
    ⟨[[(16462274541523, 0), (4253959750, 0), (0, 1158913), (424, 0), (1, 0)], [(2911104716, 0), (7882735, 0), (4976,
    0), (0, 1)], [(0, 7967859), (0, 21704), (0, 19)], [(19409, 0), (70, 0)]], 3, 4⟩, 17592186044416, 19307663,
    2990910629337414336473904537813524309774506710811163762275342065332749218667058763423112453063924712827503593935005957566156165,
    lc0⟩) (.leaf ⟨389, 16, 388, 554, 16, 2076, ⟨[[(11342130341482496, 0), (0, 2393686796320886), (48315979738, 0),
    (0, 285160), (0, 57)], [(23402361171029388, 0), (0, 2041957581099), (20768975, 0), (1835, 0)], [(23968565673315,
    0), (0, 611729288), (0, 42429), (7, 0)], [(14320136699, 0), (338033, 0), (0, 79)]], 3, 4⟩, ⟨[[(0,
    35229806483652608), (0, 3160464592863366), (45116339032, 0), (0, 874470), (48, 0)], [(0, 15041082700009118), (0,
    255175382966), (16588923, 0), (0, 1748)], [(7828594032659, 0), (0, 281491120), (9280, 0), (0, 1)], [(2894738790,
    0), (0, 80677), (20, 0)]], 3, 4⟩, 72057594037927936, 798204094824, 334730229197, ⟨[[(16465247367535, 0),
    (4336793802, 0), (0, 1081176), (374, 0), (1, 0)], [(2793638713, 0), (7591577, 0), (4705, 0), (0, 1)], [(0,
    7918259), (0, 20814), (0, 17)], [(18978, 0), (68, 0)]], 3, 4⟩, 17592186044416, 20721263,
    3167016801030287624784986567032127201008276752099003435120141069315485044474882639193054917662197266257446583927118712133893925,
    lc0⟩)) (.sx (.leaf ⟨394, 16, 424, 540, 16, 2072, ⟨[[(0, 29858568441253888), (0, 2471603389732533), (51122738117,
    0), (0, 472192), (0, 38)], [(22370805035172035, 0), (0, 2146281401407), (27866284, 0), (851, 0)],
    [(23900211003717, 0), (0, 740806707), (0, 26586), (6, 0)], [(15072553330, 0), (210425, 0), (0, 65)]], 3, 4⟩,
    ⟨[[(0, 26485368238923776), (0, 3100227151351793), (43203053710, 0), (0, 722739), (34, 0)], [(0,
    15766033533278836), (0, 216706746386), (13616410, 0), (0, 1400)], [(7331923420580, 0), (0, 266338464), (3423, 0),
    (0, 2)], [(2584764532, 0), (0, 45729), (28, 0)]], 3, 4⟩, 72057594037927936, 924379649794, 337642061535,
    ⟨[[(16325509445031, 0), (4142303703, 0), (0, 1251327), (385, 0), (1, 0)], [(2911047904, 0), (8077639, 0), (5476,
    0), (0, 1)], [(0, 7964764), (0, 22824), (0, 22)], [(20053, 0), (74, 0)]], 3, 4⟩, 17592186044416, 20747671,
    3832812526321562229130435241329338057775662903018621704746009128483278745829147053728153326053381936631307763733583963848870033,
    lc0⟩) (.leaf ⟨384, 16, 400, 536, 16, 2092, ⟨[[(12617592795832320, 0), (0, 2417959473727850), (49284122855, 0),
    (0, 400903), (0, 47)], [(23074997103481947, 0), (0, 2082325635308), (23836511, 0), (1329, 0)], [(24383117951068,
    0), (0, 669413593), (0, 33552), (7, 0)], [(14918116243, 0), (270840, 0), (0, 73)]], 3, 4⟩, ⟨[[(0,
    18229151751602176), (0, 3139819656152902), (44205612001, 0), (0, 792949), (39, 0)], [(0, 15282097076192350), (0,
    241652121235), (14182346, 0), (0, 1591)], [(7748691485136, 0), (0, 275479656), (6834, 0), (0, 2)], [(2881793835,
    0), (0, 58315), (25, 0)]], 3, 4⟩, 72057594037927936, 869332513854, 334424055892, ⟨[[(16323336406276, 0),
    (4224818609, 0), (0, 1170491), (338, 0), (1, 0)], [(2803525589, 0), (7797880, 0), (5188, 0), (0, 1)], [(0,
    7930967), (0, 22050), (0, 20)], [(19650, 0), (73, 0)]], 3, 4⟩, 17592186044416, 22763949,
    3892569939017757667076827443715287779383647341179982863363402874381503114771154614154481607460577335486120440836989176883050800,
    lc0⟩))) (.sy (.sx (.leaf ⟨381, 16, 366, 550, 16, 2096, ⟨[[(0, 34130287844843520), (0, 2339854427728938),
    (46322917705, 0), (0, 184757), (0, 65)], [(24047152650047869, 0), (0, 1972811899168), (15815265, 0), (2290, 0)],
    [(24348741839686, 0), (0, 531495166), (0, 50108), (7, 0)], [(14094907623, 0), (405947, 0), (0, 85)]], 3, 4⟩,
    ⟨[[(13598880691765248, 0), (0, 3202240397282334), (46272424792, 0), (0, 959362), (51, 0)], [(0,
    14506096750212008), (0, 281955306134), (17639123, 0), (0, 1871)], [(8289628392672, 0), (0, 295090006), (11771,
    0), (0, 1)], [(3197630117, 0), (0, 91325), (18, 0)]], 3, 4⟩, 72057594037927936, 731382551973, 329633463874,
    ⟨[[(16463979420264, 0), (4421771782, 0), (0, 1004763), (326, 0)], [(2655667756, 0), (7281975, 0), (4447, 0), (0,
    1)], [(0, 7836778), (0, 19776), (0, 15)], [(18475, 0), (66, 0)]], 3, 4⟩, 17592186044416, 22046892,
    3155555352507163486967358992098324989182721688275268451687891253935234833958633117503816903695012897718903364209410499383943624,
    lc0⟩) (.leaf ⟨372, 16, 345, 548, 16, 2118, ⟨[[(34631869945913344, 0), (0, 2284558186676667), (44201704535, 0),
    (0, 71538), (0, 72)], [(24666594123073015, 0), (0, 1899517835857), (10496454, 0), (2737, 0)], [(24659310290446,
    0), (0, 447051605), (0, 58012), (7, 0)], [(13813849797, 0), (475544, 0), (0, 91)]], 3, 4⟩, ⟨[[(0,
    26791907141902336), (0, 3248351137549358), (47528971154, 0), (0, 1050502), (53, 0)], [(0, 13937133739600335), (0,
    310467816225), (18912153, 0), (0, 1965)], [(8801048040583, 0), (0, 310415455), (13942, 0), (0, 1)], [(3504566714,
    0), (0, 101636), (15, 0)]], 3, 4⟩, 72057594037927936, 659918532264, 325146835368, ⟨[[(16463992096848, 0),
    (4485145622, 0), (0, 934041), (286, 0)], [(2545826324, 0), (7049215, 0), (4254, 0), (0, 1)], [(0, 7880319), (0,
    19032), (0, 14)], [(18555, 0), (65, 0)]], 3, 4⟩, 17592186044416, 24299752,
    3099183360375116932695139376214708612972728661253407622227670742365296902676660096201413054639573096461973326569235695845725375,
    lc0⟩)) (.sx (.leaf ⟨375, 16, 377, 532, 16, 2113, ⟨[[(24394918185971712, 0), (0, 2362448304592945), (47332767101,
    0), (0, 313831), (0, 56)], [(23754151190040850, 0), (0, 2014104753218), (19425796, 0), (1805, 0)],
    [(24793599006232, 0), (0, 593924018), (0, 40995), (7, 0)], [(14706942938, 0), (333856, 0), (0, 80)]], 3, 4⟩,
    ⟨[[(23259410724290560, 0), (0, 3182084619912400), (45265023175, 0), (0, 871539), (44, 0)], [(0,
    14762194508372114), (0, 267784912478), (15035330, 0), (0, 1750)], [(8210368470548, 0), (0, 286480411), (9951, 0),
    (0, 1)], [(3182218859, 0), (0, 71851), (23, 0)]], 3, 4⟩, 72057594037927936, 802615886053, 332656281936,
    ⟨[[(16320466828910, 0), (4306302177, 0), (0, 1088893), (294, 0), (1, 0)], [(2681612556, 0), (7498452, 0), (4894,
    0), (0, 1)], [(0, 7882124), (0, 21147), (0, 19)], [(19137, 0), (70, 0)]], 3, 4⟩, 17592186044416, 24770922,
    3852375364446866399728110992190460200011012672626856125157370097410483799459333087424983690072060748790995032662893942676431874,
    lc0⟩) (.leaf ⟨367, 16, 355, 529, 16, 2135, ⟨[[(4250298704584704, 0), (0, 2305204314493811), (45265044136, 0), (0,
    212264), (0, 64)], [(24403431419672997, 0), (0, 1941740477505), (14632378, 0), (2273, 0)], [(25129032416956, 0),
    (0, 514417357), (0, 48757), (7, 0)], [(14437023853, 0), (399447, 0), (0, 86)]], 3, 4⟩, ⟨[[(27214107298865152, 0),
    (0, 3227095946722845), (46393733375, 0), (0, 957252), (48, 0)], [(0, 14201548833315291), (0, 295294964869),
    (16151208, 0), (0, 1876)], [(8718050694092, 0), (0, 299422517), (12714, 0), (0, 1)], [(3485369628, 0), (0,
    85339), (19, 0)]], 3, 4⟩, 72057594037927936, 731985964479, 326253954596, ⟨[[(16320985789292, 0), (4384135487, 0),
    (0, 1006287), (254, 0)], [(2551713079, 0), (7192553, 0), (4604, 0), (0, 1)], [(0, 7841454), (0, 20157), (0, 17)],
    [(18662, 0), (68, 0)]], 3, 4⟩, 17592186044416, 26746964,
    3570122283823499801003181725895539893709428645350533146651635793411719937886831559439847866340121020338535716985525343135583737,
    lc0⟩)))) (.sx (.sy (.sx (.leaf ⟨389, 16, 438, 522, 16, 2089, ⟨[[(0, 1596377080168448), (0, 2500577787940420),
    (52023924767, 0), (0, 552322), (0, 25)], [(22003801591551250, 0), (0, 2187732270476), (29663713, 0), (284, 0)],
    [(24299090705457, 0), (0, 788036499), (0, 17965), (6, 0)], [(15663198123, 0), (154641, 0), (0, 58)]], 3, 4⟩,
    ⟨[[(31388855601045504, 0), (0, 3082466458251220), (42506611015, 0), (0, 670996), (23, 0)], [(0,
    16001777967792003), (0, 205700460780), (11811908, 0), (0, 1119)], [(7257836491701, 0), (0, 266966153), (0, 485),
    (0, 3)], [(2590365924, 0), (0, 15092), (34, 0)]], 3, 4⟩, 72057594037927936, 991346307037, 337095291458,
    ⟨[[(16182689949926, 0), (4021942870, 0), (0, 1356713), (340, 0), (1, 0)], [(2916300555, 0), (8318778, 0), (6093,
    0), (0, 1)], [(0, 8012327), (0, 24179), (0, 25)], [(21030, 0), (81, 0)]], 3, 4⟩, 17592186044416, 22556210,
    4344371765281760571402722847380897523956379079641601605245758324764150210817511300168709617789958194792132988558312611025590399,
    lc0⟩) (.leaf ⟨379, 16, 412, 518, 16, 2109, ⟨[[(0, 34105332096180224), (0, 2439867774378244), (50073621889, 0),
    (0, 497613), (0, 35)], [(22696901632882024, 0), (0, 2119257086109), (26175495, 0), (787, 0)], [(24760630189782,
    0), (0, 719102480), (0, 24484), (7, 0)], [(15487492848, 0), (207914, 0), (0, 66)]], 3, 4⟩, ⟨[[(14650283300839424,
    0), (0, 3121176830836750), (43416037422, 0), (0, 729712), (29, 0)], [(0, 15525170283807174), (0, 230415923626),
    (12060078, 0), (0, 1353)], [(7673723712010, 0), (0, 272366659), (3647, 0), (0, 2)], [(2882632197, 0), (0, 30220),
    (31, 0)]], 3, 4⟩, 72057594037927936, 935650227625, 335713660533, ⟨[[(16184841517853, 0), (4116659005, 0), (0,
    1260657), (296, 0), (1, 0)], [(2803090267, 0), (7994842, 0), (5715, 0), (0, 1)], [(0, 7936302), (0, 23220), (0,
    23)], [(20441, 0), (78, 0)]], 3, 4⟩, 17592186044416, 24817884,
    4485878777183252840811780792524665332420792589207514585270476272184200193890087161353201765766296665188076993431479647292600337,
    lc0⟩)) (.sx (.leaf ⟨384, 16, 453, 505, 16, 2105, ⟨[[(33788362242895872, 0), (0, 2532636016166878), (52914715326,
    0), (0, 606220), (0, 9)], [(21629252770281798, 0), (0, 2231786634537), (30653536, 0), (0, 331)],
    [(24718225364075, 0), (0, 828924166), (0, 9175), (6, 0)], [(16265745749, 0), (105280, 0), (0, 49)]], 3, 4⟩,
    ⟨[[(0, 3839554043904000), (0, 3063573408589699), (41841617383, 0), (0, 643880), (9, 0)], [(0, 16225522666761176),
    (0, 196087051966), (10483214, 0), (0, 741)], [(7177871045615, 0), (0, 271857663), (0, 5338), (0, 4)],
    [(2611714698, 0), (22334, 0), (41, 0)]], 3, 4⟩, 72057594037927936, 1055513570289, 338015540796,
    ⟨[[(16047173438164, 0), (3898484114, 0), (0, 1471023), (293, 0), (1, 0)], [(2931403073, 0), (8599000, 0), (6798,
    0), (0, 1)], [(0, 8116252), (0, 25742), (0, 29)], [(22235, 0), (88, 0)]], 3, 4⟩, 17592186044416, 24555946,
    4386541388152006642757215796722796370631315384409645245916756770777881371650118237248602442760753321788066624988513561822287731,
    lc0⟩) (.leaf ⟨374, 16, 426, 500, 16, 2125, ⟨[[(0, 425589028065280), (0, 2471199213635388), (50952681819, 0), (0,
    572528), (0, 21)], [(22375041969288619, 0), (0, 2163634888538), (27833928, 0), (206, 0)], [(25223225529523, 0),
    (0, 763887129), (0, 15278), (7, 0)], [(16105182103, 0), (150774, 0), (0, 59)]], 3, 4⟩, ⟨[[(27186982322855936, 0),
    (0, 3101477662324603), (42677132511, 0), (0, 687377), (18, 0)], [(0, 15756599172206260), (0, 220914570306),
    (10342935, 0), (0, 1023)], [(7594777626227, 0), (0, 272712907), (0, 388), (0, 3)], [(2897701974, 0), (4439, 0),
    (38, 0)]], 3, 4⟩, 72057594037927936, 1000016454655, 329523520947, ⟨[[(16046808785963, 0), (4000621651, 0), (0,
    1364796), (251, 0), (1, 0)], [(2811855875, 0), (8239493, 0), (6358, 0), (0, 1)], [(0, 7988020), (0, 24612), (0,
    27)], [(21518, 0), (84, 0)]], 3, 4⟩, 17592186044416, 27049181,
    4636343206928468975226785940187371630004235815452692904072585236228564986520886744984564450333456442647739333442872846323821128,
    lc0⟩))) (.sy (.sx (.leaf ⟨370, 16, 388, 514, 16, 2130, ⟨[[(0, 34497360935591936), (0, 2382742250405304),
    (48146523492, 0), (0, 426188), (0, 45)], [(23411916812954910, 0), (0, 2051537731550), (22362672, 0), (1289, 0)],
    [(25200430149246, 0), (0, 648298352), (0, 31666), (7, 0)], [(15288484044, 0), (265033, 0), (0, 74)]], 3, 4⟩,
    ⟨[[(30034009313558528, 0), (0, 3162517035241109), (44368692861, 0), (0, 798369), (35, 0)], [(0,
    15012869983080094), (0, 256006969896), (12651170, 0), (0, 1550)], [(8133780007250, 0), (0, 279949556), (7458, 0),
    (0, 2)], [(3177642244, 0), (0, 46902), (28, 0)]], 3, 4⟩, 72057594037927936, 870130116485, 329816030211,
    ⟨[[(16183895012160, 0), (4203116824, 0), (0, 1169552), (255, 0), (1, 0)], [(2683531467, 0), (7674056, 0), (5357,
    0), (0, 1)], [(0, 7864402), (0, 22242), (0, 22)], [(19783, 0), (74, 0)]], 3, 4⟩, 17592186044416, 27156993,
    4477183457603560092933259185323602113826362665663492921085871298275837851726734460162765735707169533004555404055875045141413273,
    lc0⟩) (.leaf ⟨361, 16, 365, 511, 16, 2152, ⟨[[(3535590634323968, 0), (0, 2323610096709023), (46118107479, 0), (0,
    338218), (0, 54)], [(24092709805317949, 0), (0, 1979705908606), (18145742, 0), (1782, 0)], [(25559666509767, 0),
    (0, 573763283), (0, 39285), (7, 0)], [(15028250021, 0), (325792, 0), (0, 81)]], 3, 4⟩, ⟨[[(6750823151034368, 0),
    (0, 3206547632036223), (45379128188, 0), (0, 875549), (41, 0)], [(0, 14460179128033457), (0, 282690070964),
    (13558634, 0), (0, 1710)], [(8639040947430, 0), (0, 289861954), (10877, 0), (0, 1)], [(3475268379, 0), (0,
    63951), (25, 0)]], 3, 4⟩, 72057594037927936, 800678952126, 327838433603, ⟨[[(16183875374685, 0), (4278545191, 0),
    (0, 1083038), (220, 0), (1, 0)], [(2572270011, 0), (7389013, 0), (5038, 0), (0, 1)], [(0, 7862550), (0, 21413),
    (0, 20)], [(19344, 0), (72, 0)]], 3, 4⟩, 17592186044416, 30030309,
    4160557006462217475891050473536129035166614037935465759373074053902344181086641065924933095560765956936198488070352525176814846,
    lc0⟩)) (.sx (.leaf ⟨364, 16, 400, 496, 16, 2146, ⟨[[(677358496854016, 0), (0, 2406955031120074), (48910907780,
    0), (0, 518174), (0, 32)], [(23080232412703704, 0), (0, 2090984020584), (24613398, 0), (741, 0)],
    [(25636975460373, 0), (0, 695829251), (0, 22151), (7, 0)], [(15879901641, 0), (200575, 0), (0, 68)]], 3, 4⟩,
    ⟨[[(17169450882269184, 0), (0, 3141983518782207), (43539664230, 0), (0, 742558), (26, 0)], [(0,
    15252100386797504), (0, 246243406988), (10608847, 0), (0, 1263)], [(8054920083187, 0), (0, 276105201), (4207, 0),
    (0, 2)], [(3185440574, 0), (0, 15755), (34, 0)]], 3, 4⟩, 72057594037927936, 935543478712, 329087366037,
    ⟨[[(16047302035587, 0), (4091124135, 0), (0, 1263738), (214, 0), (1, 0)], [(2702993630, 0), (7920560, 0), (5952,
    0), (0, 1)], [(0, 7932451), (0, 23662), (0, 25)], [(20952, 0), (81, 0)]], 3, 4⟩, 17592186044416, 30256051,
    4703244705099552218547704900842837065209512365815860501664960858403037999536263135453240574787080549407617315712448301141083912,
    lc0⟩) (.leaf ⟨355, 16, 376, 493, 16, 2168, ⟨[[(30253997316755456, 0), (0, 2346228432250595), (46906289440, 0),
    (0, 446084), (0, 42)], [(23799953361900087, 0), (0, 2019357028399), (21027250, 0), (1265, 0)], [(26023965706761,
    0), (0, 626227049), (0, 29649), (7, 0)], [(15629255494, 0), (255663, 0), (0, 76)]], 3, 4⟩, ⟨[[(0,
    32640186503139328), (0, 3185135832412984), (44446153877, 0), (0, 807806), (33, 0)], [(0, 14707423506519326), (0,
    272319638581), (11251249, 0), (0, 1461)], [(8559236720724, 0), (0, 282261988), (8361, 0), (0, 2)], [(3475454982,
    0), (0, 36830), (30, 0)]], 3, 4⟩, 72057594037927936, 867445084883, 321644829063, ⟨[[(16049146208895, 0),
    (4171369298, 0), (0, 1167520), (182, 0), (1, 0)], [(2594795900, 0), (7614970, 0), (5564, 0), (0, 1)], [(0,
    7904718), (0, 22743), (0, 23)], [(20375, 0), (78, 0)]], 3, 4⟩, 17592186044416, 33696885,
    4520397188961177429849770289485634496050572442530624168653889159507517993859490318663167118162108005720442558857713583015472265,
    lc0⟩))))
theorem c28 : checkR job con0 false ⟨7, 9, 7, 9, 13, 17⟩ 1 30400 t28 579 21 320 14745 251 16000 = true := by decide +kernel

def t29 : CTree :=
  .sy (.sx (.sy (.out ⟨312, 16, 289, 1855, 16, 1765, ⟨[[(35695574044774400, 0), (0, 2127935257155386), (35098986233,
    0)], [(25704301884542223, 0), (0, 1595939077615), (0, 18381739)], [(22489514045130, 0), (259095, 0), (0,
    101427)]], 2, 2⟩, ⟨[[(26689085121953792, 0), (0, 3327008056130342), (54197184063, 0)], [(0, 11887632791829346),
    (0, 423571281626), (30438588, 0)], [(9557184074057, 0), (0, 369451298), (13359, 0)]], 2, 2⟩, 72057594037927936,
    115093487193664, 61127835387141, ⟨[], 0, 0⟩, 0, 0, 0, lc0⟩ 0 166 13) (.sx (.leaf ⟨516, 16, 410, 685, 16, 2373,
    ⟨[[(0, 15984964539121664), (0, 2944192078988911), (51289224151, 0), (693821, 0), (0, 124)], [(17329927542182708,
    0), (0, 1141106866883), (0, 6934483), (2898, 0)], [(7844641895121, 0), (0, 42405801), (0, 30800), (3, 0)],
    [(1948059827, 0), (131045, 0), (0, 18)]], 3, 4⟩, ⟨[[(0, 4774800914227200), (0, 3822542769573080), (60431904136,
    0), (0, 1634041), (65, 0)], [(0, 7183265120222115), (0, 226138832186), (16114794, 0), (0, 1046)],
    [(2705566115602, 0), (0, 102773212), (4206, 0)], [(544321625, 0), (0, 17854)]], 3, 4⟩, 72057594037927936,
    50651255851, 28124354836, ⟨[[(16901216417710, 0), (4262502471, 0), (0, 532864), (175, 0)], [(1760850133, 0),
    (4234571, 0), (1635, 0), (0, 2)], [(0, 4172126), (0, 7553), (0, 9)], [(7859, 0), (10, 0)]], 3, 4⟩,
    17592186044416, 4327757,
    4943877053330522659929051560097828699830427317096448931354889748368958799192249007136036235209272624264467278439455081825363086,
    lc0⟩) (.out ⟨410, 16, 393, 2102, 16, 2027, ⟨[[(0, 4290062298591232), (0, 2868117327575772), (48830058604, 0)],
    [(17252914772219139, 0), (0, 1096524876293), (0, 9219251)], [(7755923982990, 0), (0, 24194788), (0, 31737)]], 2,
    2⟩, ⟨[[(26945313236680704, 0), (0, 3764477000490686), (60035738762, 0)], [(0, 6830167033456126), (0,
    230714134227), (16177480, 0)], [(2726266373768, 0), (0, 103160335), (4141, 0)]], 2, 2⟩, 72057594037927936,
    31940525553097, 31839563711512, ⟨[], 0, 0⟩, 0, 0, 0, lc0⟩ 0 1572 68))) (.out ⟨205, 16, 185, 1045, 16, 1004,
    ⟨[[(8319344339517440, 0), (0, 2787917349710216), (89110813085, 0)], [(17443104902585417, 0), (0, 2053384572962),
    (0, 60259784)], [(15274490765553, 0), (79499515, 0), (0, 280812)]], 2, 2⟩, ⟨[[(0, 97265750769664), (0,
    3774694034770160), (123595066416, 0)], [(0, 6357519735209915), (0, 500236952142), (69044173, 0)],
    [(5666926263164, 0), (0, 429728875), (31093, 0)]], 2, 2⟩, 72057594037927936, 150043801629673, 137366378801748,
    ⟨[], 0, 0⟩, 0, 0, 0, lc0⟩ 0 185 20)) (.sx (.sy (.leaf ⟨377, 16, 309, 583, 16, 2106, ⟨[[(8266598911721472, 0), (0,
    2197917515107281), (39249734117, 0), (382413, 0), (0, 90)], [(25754973756362002, 0), (0, 1731620533749), (0,
    5998520), (4021, 0)], [(23945009230665, 0), (0, 193255925), (0, 84650), (8, 0)], [(12194411463, 0), (713798, 0),
    (0, 103)]], 3, 4⟩, ⟨[[(0, 32628275560267776), (0, 3343633135982780), (51808116201, 0), (0, 1353874), (58, 0)],
    [(0, 12745401238068588), (0, 381485090046), (26051171, 0), (0, 1953)], [(9546055565199, 0), (0, 353448675),
    (15602, 0)], [(3868083978, 0), (0, 124184), (4, 0)]], 3, 4⟩, 72057594037927936, 431615172898, 317885202853,
    ⟨[[(16754134760352, 0), (4761498538, 0), (0, 732990), (268, 0)], [(2354121491, 0), (6536955, 0), (3405, 0), (0,
    3)], [(0, 7643026), (0, 15543), (0, 13)], [(19381, 0), (49, 0)]], 3, 4⟩, 17592186044416, 23911819,
    5422480266351257767027009676254554522926888932616704333098153052764787486409398050846959103449839378499418723277930792654781570,
    lc0⟩) (.leaf ⟨371, 16, 317, 564, 16, 2124, ⟨[[(22416234517786624, 0), (0, 2214143775757499), (40720760079, 0),
    (214211, 0), (0, 85)], [(25528944769113408, 0), (0, 1779643375558), (0, 333477), (3606, 0)], [(24444506858304,
    0), (0, 279654982), (0, 75380), (7, 0)], [(12851569330, 0), (629233, 0), (0, 99)]], 3, 4⟩, ⟨[[(15391728917479424,
    0), (0, 3320754166872715), (50282278784, 0), (0, 1249345), (57, 0)], [(0, 13041108866377330), (0, 359872666886),
    (23260546, 0), (0, 2023)], [(9452689151669, 0), (0, 340537104), (15924, 0)], [(3839586559, 0), (0, 119397), (8,
    0)]], 3, 4⟩, 72057594037927936, 507252282521, 314489847639, ⟨[[(16604895880328, 0), (4655413245, 0), (0, 795269),
    (264, 0)], [(2376194355, 0), (6639145, 0), (3775, 0), (0, 2)], [(0, 7761391), (0, 16603), (0, 11)], [(18929, 0),
    (60, 0)]], 3, 4⟩, 17592186044416, 23883948,
    4765899181190339842421661854511154731516285031285363196078581182637618496370156977370013871547761022422765977668309413606032388,
    lc0⟩)) (.sy (.sx (.sy (.out ⟨602, 16, 584, 3724, 16, 3631, ⟨[[(0, 5935564374843392), (0, 2137921440052757),
    (18318335203, 0)], [(26004449308949672, 0), (0, 821400700822), (0, 3158514)], [(11869728774794, 0), (0,
    23011501), (0, 11549)]], 2, 2⟩, ⟨[[(0, 7698232122540032), (0, 3340208255530919), (26361714513, 0)], [(0,
    11976881618620763), (0, 203727112249), (6881375, 0)], [(4940459443202, 0), (0, 91494124), (1944, 0)]], 2, 2⟩,
    72057594037927936, 29661655591185, 15197382861480, ⟨[], 0, 0⟩, 0, 0, 0, lc0⟩ 0 1168 36) (.leaf ⟨751, 16, 603,
    1160, 16, 4277, ⟨[[(0, 6613091321053184), (0, 2188388791343319), (19104185622, 0), (114135, 0), (0, 12)],
    [(26423974828414315, 0), (0, 850978596740), (0, 2432571), (534, 0)], [(12241030879723, 0), (0, 35362037), (0,
    11189)], [(3051139935, 0), (94780, 0), (0, 7)]], 3, 4⟩, ⟨[[(13129165422821376, 0), (0, 3394444505348825),
    (26460579652, 0), (0, 352031), (7, 0)], [(0, 12370588365361970), (0, 201779500525), (6679904, 0), (0, 248)],
    [(5013833857509, 0), (0, 91690765), (2038, 0)], [(1027434390, 0), (0, 15695)]], 3, 4⟩, 72057594037927936,
    48116921876, 38972962670, ⟨[[(16715183480997, 0), (2377623285, 0), (0, 173498), (28, 0)], [(1108795861, 0),
    (1570740, 0), (410, 0)], [(0, 1846465), (0, 1832), (0, 1)], [(2387, 0), (3, 0)]], 3, 4⟩, 17592186044416, 436011,
    5575342278787381589444677687119278681668795962692177604137324643488360448232387426181474464347184388619144980318175151125338467,
    lc0⟩)) (.out ⟨400, 16, 383, 2102, 16, 2060, ⟨[[(0, 4951519173308416), (0, 2837486559570944), (47950762749, 0)],
    [(17582693973836891, 0), (0, 1081817501061), (0, 9774903)], [(8023627904392, 0), (0, 21345060), (0, 31546)]], 2,
    2⟩, ⟨[[(14796958977589248, 0), (0, 3784835532828245), (59865357131, 0)], [(0, 6586283275962317), (0,
    236014142502), (15587211, 0)], [(2863040375116, 0), (0, 104897652), (4494, 0)]], 2, 2⟩, 72057594037927936,
    32084238534093, 32013493081559, ⟨[], 0, 0⟩, 0, 0, 0, lc0⟩ 0 1532 68)) (.sy (.sx (.leaf ⟨745, 16, 611, 1141, 16,
    4295, ⟨[[(35337877758271488, 0), (0, 2197905609172073), (19514023264, 0), (92181, 0), (0, 11)],
    [(26341129147031323, 0), (0, 864342250305), (0, 1674227), (509, 0)], [(12382649949590, 0), (0, 46846065), (0,
    10607)], [(3138162135, 0), (89427, 0), (0, 6)]], 3, 4⟩, ⟨[[(29527991168843776, 0), (0, 3382315611659130),
    (26050424648, 0), (0, 339077), (7, 0)], [(0, 12522711489604200), (0, 196083190189), (6329696, 0), (0, 253)],
    [(4989231324940, 0), (0, 90003619), (2080, 0)], [(1023902270, 0), (0, 15520)]], 3, 4⟩, 72057594037927936,
    53854089654, 39089782801, ⟨[[(16641200219789, 0), (2351135956, 0), (0, 180744), (28, 0)], [(1115459359, 0),
    (1581920, 0), (437, 0)], [(0, 1866325), (0, 1880), (0, 1)], [(2359, 0), (3, 0)]], 3, 4⟩, 17592186044416, 404515,
    5267055246149508700178384148531838768086912410977893786147240669364477234952941165422890189079681049202233567150781285231260660,
    lc0⟩) (.sy (.leaf ⟨985, 16, 787, 1864, 16, 7022, ⟨[[(30193369039249408, 0), (0, 1442073752336679), (6240705500,
    0), (19406, 0), (0, 1)], [(35430211483435654, 0), (0, 558443023809), (0, 904384), (90, 0)], [(16467213659877, 0),
    (0, 20746968), (0, 3744)], [(4072400273, 0), (63517, 0), (0, 2)]], 3, 4⟩, ⟨[[(3677405336485888, 0), (0,
    2777191936025494), (10811871920, 0), (0, 72190), (1, 0)], [(0, 19737575417385856), (0, 167882652018), (2697756,
    0), (0, 51)], [(8390167145410, 0), (0, 75607604), (859, 0)], [(1729361380, 0), (0, 12750)]], 3, 4⟩,
    72057594037927936, 51743509943, 61013734251, ⟨[[(16660379135025, 0), (1456905389, 0), (0, 64527), (6, 0)],
    [(809905367, 0), (717309, 0), (119, 0)], [(0, 1042731), (0, 629)], [(1029, 0), (1, 0)]], 3, 4⟩, 17592186044416,
    137686,
    5803754931959221340832522297549229995943895628175329826801923397078365358130184573880277874262193305876670138423681902850815879,
    lc0⟩) (.leaf ⟨982, 16, 792, 1846, 16, 7028, ⟨[[(0, 29444997009555456), (0, 1444915853166821), (6308273470, 0),
    (17554, 0), (0, 1)], [(35372970669396724, 0), (0, 562837026308), (0, 775963), (88, 0)], [(16560413351713, 0), (0,
    24600784), (0, 3647)], [(4129809625, 0), (61728, 0), (0, 2)]], 3, 4⟩, ⟨[[(22860266865885184, 0), (0,
    2768754790180359), (10713394942, 0), (0, 70796), (1, 0)], [(0, 19838115504676587), (0, 165354072744), (2622589,
    0), (0, 52)], [(8359566107167, 0), (0, 74804838), (868, 0)], [(1724454129, 0), (0, 12674)]], 3, 4⟩,
    72057594037927936, 55004031268, 61116150470, ⟨[[(16624424045044, 0), (1451588841, 0), (0, 65869), (6, 0)],
    [(809982459, 0), (719096, 0), (122, 0)], [(0, 1045494), (0, 635)], [(1020, 0), (1, 0)]], 3, 4⟩, 17592186044416,
    124777,
    5595339828975575368117131077467120088279430198180353727698295654760950371014717324898485627101410853161537020793328274962642314,
    lc0⟩))) (.leaf ⟨485, 16, 402, 903, 16, 3482, ⟨[[(34191367101071360, 0), (0, 1445129192912859), (12903317284, 0),
    (52544, 0), (0, 7)], [(34778675012099389, 0), (0, 1142094427475), (0, 1784501), (653, 0)], [(33048466501557, 0),
    (0, 136303903), (0, 27082), (1, 0)], [(16852202043, 0), (455841, 0), (0, 34)]], 3, 4⟩, ⟨[[(26358326265954304, 0),
    (0, 2724343508313101), (20816109553, 0), (0, 267615), (6, 0)], [(0, 20122731087299215), (0, 313959836026),
    (9784509, 0), (0, 415)], [(16243721766249, 0), (0, 288166596), (6885, 0)], [(6694856001, 0), (0, 98821), (2,
    0)]], 3, 4⟩, 72057594037927936, 522728663703, 485494324710, ⟨[[(16568672802752, 0), (2897057707, 0), (0, 283801),
    (51, 0)], [(1674537096, 0), (2976092, 0), (1059, 0)], [(0, 4319755), (0, 5479), (0, 2)], [(8190, 0), (15, 0)]],
    3, 4⟩, 17592186044416, 3964311,
    5398364600704782132185224475594886712940347809806158319546403582111161003806177040620168033171773999935903990880849686110512009,
    lc0⟩))))
theorem c29 : checkR job con0 false ⟨7, 9, 7, 9, 13, 17⟩ 1 30400 t29 1221 21 640 14243 251 16000 = true := by decide +kernel

def t30 : CTree :=
  .sy (.out ⟨151, 16, 126, 935, 16, 903, ⟨[[(0, 23286447161313280), (0, 1986472117182856), (57295465739, 0)],
    [(26496819966428742, 0), (0, 2762318934875), (0, 135225378)], [(45265370753849, 0), (908626718, 0), (0,
    924595)]], 2, 2⟩, ⟨[[(11757923426533376, 0), (0, 3424877139862670), (115182843000, 0)], [(0, 10100579572800206),
    (0, 1000034564359), (131036734, 0)], [(22026463101958, 0), (0, 1633863394), (104537, 0)]], 2, 2⟩,
    72057594037927936, 470368775228841, 283163194865641, ⟨[], 0, 0⟩, 0, 0, 0, lc0⟩ 0 57 11) (.sx (.sy (.out ⟨295, 16,
    272, 1871, 16, 1838, ⟨[[(18756414466199552, 0), (0, 2063571803973491), (33524354681, 0)], [(26442778785756870,
    0), (0, 1538034153006), (0, 19834490)], [(23841601573653, 0), (15753712, 0), (0, 99377)]], 2, 2⟩, ⟨[[(0,
    24375228824059904), (0, 3390597045144895), (54305941762, 0)], [(0, 11096572219922603), (0, 445111724864),
    (28826019, 0)], [(10623763960442, 0), (0, 385985308), (16036, 0)]], 2, 2⟩, 72057594037927936, 119334129186887,
    66036058007297, ⟨[], 0, 0⟩, 0, 0, 0, lc0⟩ 0 156 13) (.sy (.out ⟨382, 16, 365, 3058, 16, 3033, ⟨[[(0,
    11980841018896384), (0, 1367447155338390), (11477846245, 0)], [(34703375622125202, 0), (0, 1040655260297), (0,
    4926110)], [(31982929173548, 0), (0, 37461831), (0, 30463)]], 2, 2⟩, ⟨[[(0, 11700002708684800), (0,
    2764303610267078), (21714017279, 0)], [(0, 18581120726145466), (0, 350009364736), (11002252, 0)],
    [(17294956794907, 0), (0, 308239239), (6954, 0)]], 2, 2⟩, 72057594037927936, 146336691316221, 71809277891115,
    ⟨[], 0, 0⟩, 0, 0, 0, lc0⟩ 0 1461 68) (.sx (.sy (.sx (.leaf ⟨1472, 16, 1181, 2259, 16, 8729, ⟨[[(0,
    3573574536314880), (0, 2171649487514192), (9408240239, 0), (27402, 0), (0, 1)], [(26949115981002715, 0), (0,
    421362129478), (0, 651940), (67, 0)], [(6315783856172, 0), (0, 8349823), (0, 1391)], [(781723092, 0), (11794,
    0)]], 3, 4⟩, ⟨[[(0, 28741910519382016), (0, 3432047542870610), (13275948120, 0), (0, 88154), (1, 0)], [(0,
    12042129848008120), (0, 103992321920), (1614595, 0), (0, 32)], [(2635094499180, 0), (0, 23324716), (275, 0)],
    [(272643196, 0), (0, 1951)]], 3, 4⟩, 72057594037927936, 7325579329, 5031660768, ⟨[[(16588926999202, 0),
    (1174557514, 0), (0, 42589), (3, 0)], [(523080364, 0), (381187, 0), (53, 0)], [(0, 455577), (0, 223)], [(297,
    0)]], 3, 4⟩, 17592186044416, 36800,
    5621923196602054926104248870645715202851686815218021662948131787885876082754639170879927641434726817344766318101630127105955375,
    lc0⟩) (.out ⟨1165, 16, 1142, 7494, 16, 7465, ⟨[[(0, 28699472596746240), (0, 2117061592504263), (9068674192, 0)],
    [(26576192295101370, 0), (0, 408064615344), (0, 745484)], [(6202697976212, 0), (0, 6608423), (0, 1395)]], 2, 2⟩,
    ⟨[[(4243726385545216, 0), (0, 3379667776552651), (13123727963, 0)], [(0, 11624013377769304), (0, 104210857140),
    (1610675, 0)], [(2625572498761, 0), (0, 23180825), (272, 0)]], 2, 2⟩, 72057594037927936, 7573473238346,
    3932846195139, ⟨[], 0, 0⟩, 0, 0, 0, lc0⟩ 0 653 13)) (.leaf ⟨965, 16, 778, 1821, 16, 7123, ⟨[[(0,
    8539195652358144), (0, 1430208482152078), (6215488976, 0), (17015, 0), (0, 1)], [(35577922194903613, 0), (0,
    556470387088), (0, 802760), (88, 0)], [(16761389903589, 0), (0, 23711925), (0, 3612)], [(4161276443, 0), (61228,
    0), (0, 2)]], 3, 4⟩, ⟨[[(0, 20344603928150016), (0, 2791544561981095), (10753082793, 0), (0, 71028), (1, 0)],
    [(0, 19557259041917611), (0, 168696821734), (2574870, 0), (0, 53)], [(8619183629656, 0), (0, 75627249), (907,
    0)], [(1786074133, 0), (0, 12629)]], 3, 4⟩, 72057594037927936, 52643027186, 59745644933, ⟨[[(16553001867262, 0),
    (1438930737, 0), (0, 64889), (5, 0)], [(788030397, 0), (709514, 0), (125, 0)], [(0, 1050278), (0, 634)], [(1033,
    0), (1, 0)]], 3, 4⟩, 17592186044416, 113895,
    5615444343465331135324808445816224111762149725594027494154599359506033245110900379756047644346858857713876445973001441720958003,
    lc0⟩)) (.out ⟨577, 16, 558, 3749, 16, 3745, ⟨[[(0, 5628810974560256), (0, 2089578613584805), (17669987450, 0)],
    [(26643417824097853, 0), (0, 799776706166), (0, 3411732)], [(12402189935526, 0), (0, 19675036), (0, 11329)]], 2,
    2⟩, ⟨[[(0, 25877456729800704), (0, 3391021400463825), (26405822454, 0)], [(0, 11354623437273990), (0,
    213381199054), (6507763, 0)], [(5361084844317, 0), (0, 93928952), (2210, 0)]], 2, 2⟩, 72057594037927936,
    30388974048809, 16131045149987, ⟨[], 0, 0⟩, 0, 0, 0, lc0⟩ 0 744 25)))) (.out ⟨197, 16, 176, 1046, 16, 1038,
    ⟨[[(0, 26606148412243968), (0, 2732651486211738), (85779646217, 0)], [(18194299947464436, 0), (0, 1999934511421),
    (0, 64125438)], [(16357661263546, 0), (98216278, 0), (0, 276992)]], 2, 2⟩, ⟨[[(18840438624681984, 0), (0,
    3820378329325225), (122801776252, 0)], [(0, 5816152254962637), (0, 523368081260), (65043824, 0)],
    [(6263210641663, 0), (0, 443678876), (37411, 0)]], 2, 2⟩, 72057594037927936, 151442165773346, 139604169906066,
    ⟨[], 0, 0⟩, 0, 0, 0, lc0⟩ 0 141 17))
theorem c30 : checkR job con0 false ⟨7, 9, 7, 9, 13, 17⟩ 1 30400 t30 1263 21 640 14243 251 16000 = true := by decide +kernel

def t31 : CTree :=
  .sy (.sy (.sx (.leaf ⟨366, 16, 326, 546, 16, 2141, ⟨[[(9850733349371904, 0), (0, 2234838129969118), (42080763789,
    0), (53347, 0), (0, 79)], [(25335362164915849, 0), (0, 1827843605120), (4843968, 0), (3181, 0)],
    [(24975567487178, 0), (0, 359704216), (0, 66200), (7, 0)], [(13516177455, 0), (548236, 0), (0, 95)]], 3, 4⟩,
    ⟨[[(0, 29915405523656704), (0, 3297368499166926), (48873940357, 0), (0, 1146367), (55, 0)], [(0,
    13321938470803499), (0, 340755868147), (20374282, 0), (0, 2031)], [(9360059401261, 0), (0, 327251527), (15761,
    0)], [(3812169219, 0), (0, 110664), (12, 0)]], 3, 4⟩, 72057594037927936, 582253910555, 318680108708,
    ⟨[[(16465086415002, 0), (4553289350, 0), (0, 859231), (246, 0)], [(2397716751, 0), (6750446, 0), (4044, 0), (0,
    1)], [(0, 7797017), (0, 17840), (0, 12)], [(18439, 0), (63, 0)]], 3, 4⟩, 17592186044416, 25602827,
    3699339955633058390725930234257629271979981689002476642376663326140204851969302892556050158788818428974345462594968203701474024,
    lc0⟩) (.leaf ⟨359, 16, 307, 544, 16, 2166, ⟨[[(21106124904448000, 0), (0, 2177439385602043), (39703033529, 0),
    (188618, 0), (0, 85)], [(25902505017496832, 0), (0, 1746855866287), (0, 1163769), (3601, 0)], [(25148804779401,
    0), (0, 267236741), (0, 74157), (7, 0)], [(13117496687, 0), (620609, 0), (0, 98)]], 3, 4⟩, ⟨[[(24195268865564672,
    0), (0, 3350942454844484), (50339281041, 0), (0, 1246480), (56, 0)], [(0, 12661192092208480), (0, 373148467942),
    (22008099, 0), (0, 2071)], [(9971965540181, 0), (0, 345560312), (17224, 0)], [(4119244505, 0), (0, 117524), (9,
    0)]], 3, 4⟩, 72057594037927936, 491724584969, 303281898340, ⟨[[(16461263482020, 0), (4611549860, 0), (0, 787244),
    (208, 0)], [(2252456624, 0), (6494324, 0), (3894, 0), (0, 1)], [(0, 7761856), (0, 16745), (0, 10)], [(18909, 0),
    (62, 0)]], 3, 4⟩, 17592186044416, 27970848,
    4767867827029219395333023631523480738898995414397179248618245340575348121688442964257821387636490557556959144210255130570520815,
    lc0⟩)) (.sx (.leaf ⟨360, 16, 335, 527, 16, 2158, ⟨[[(28597468438290432, 0), (0, 2253118955977327), (43207490926,
    0), (0, 98017), (0, 71)], [(25093546259310123, 0), (0, 1870971781079), (9497078, 0), (2734, 0)],
    [(25463326160998, 0), (0, 432281087), (0, 56836), (7, 0)], [(14148112694, 0), (468810, 0), (0, 91)]], 3, 4⟩,
    ⟨[[(0, 4813991388987392), (0, 3274937396766316), (47603234616, 0), (0, 1048883), (51, 0)], [(0,
    13595217254453810), (0, 324376089654), (17501777, 0), (0, 1971)], [(9272742703125, 0), (0, 314258194), (15086,
    0), (0, 1)], [(3789742638, 0), (0, 97697), (16, 0)]], 3, 4⟩, 72057594037927936, 654168638373, 319686460484,
    ⟨[[(16322163122503, 0), (4450793240, 0), (0, 928009), (219, 0)], [(2421587964, 0), (6903653, 0), (4353, 0), (0,
    1)], [(0, 7817362), (0, 19163), (0, 14)], [(18388, 0), (66, 0)]], 3, 4⟩, 17592186044416, 28625874,
    3110007954754163636080583432377685583401069894190351715427445793372670025245634838195405588208674500017237593507674888982027884,
    lc0⟩) (.leaf ⟨354, 16, 316, 525, 16, 2183, ⟨[[(25576616185962496, 0), (0, 2200138886736603), (41032088317, 0),
    (28299, 0), (0, 78)], [(25759382687100818, 0), (0, 1796600444745), (3986062, 0), (3179, 0)], [(25729708905275,
    0), (0, 345963928), (0, 64962), (7, 0)], [(13797855105, 0), (540786, 0), (0, 94)]], 3, 4⟩, ⟨[[(18392224827031552,
    0), (0, 3327226798094503), (48926345611, 0), (0, 1145823), (53, 0)], [(0, 12944028563644472), (0, 355377680042),
    (19065298, 0), (0, 2039)], [(9879758353020, 0), (0, 330951838), (17062, 0)], [(4094612780, 0), (0, 107847), (13,
    0)]], 3, 4⟩, 72057594037927936, 566299325802, 310159567250, ⟨[[(16320884982697, 0), (4513666411, 0), (0, 849555),
    (186, 0)], [(2273044235, 0), (6600047, 0), (4129, 0), (0, 1)], [(0, 7762218), (0, 18004), (0, 12)], [(18282, 0),
    (64, 0)]], 3, 4⟩, 17592186044416, 30409906,
    3211018210565489736229312291129887953996434706129229634622569320214717848228404953841978318504867999338616181928408749302660848,
    lc0⟩))) (.sy (.sx (.leaf ⟨354, 16, 344, 508, 16, 2175, ⟨[[(8337760118267904, 0), (0, 2269216401208518),
    (44111858629, 0), (0, 236122), (0, 62)], [(24806035909265487, 0), (0, 1909460437934), (13570008, 0), (2264, 0)],
    [(25910811806351, 0), (0, 496895026), (0, 47279), (7, 0)], [(14746959426, 0), (391233, 0), (0, 86)]], 3, 4⟩,
    ⟨[[(18382132637229056, 0), (0, 3253340099485788), (46460831053, 0), (0, 959910), (45, 0)], [(0,
    13862237421075340), (0, 310690143994), (14750985, 0), (0, 1837)], [(9190520256074, 0), (0, 302097046), (13858,
    0), (0, 1)], [(3774590104, 0), (0, 80072), (21, 0)]], 3, 4⟩, 72057594037927936, 724772624560, 319420573244,
    ⟨[[(16183078408368, 0), (4352636018, 0), (0, 996964), (186, 0)], [(2437763194, 0), (7066197, 0), (4713, 0), (0,
    1)], [(0, 7806321), (0, 20352), (0, 18)], [(18704, 0), (69, 0)]], 3, 4⟩, 17592186044416, 32325146,
    3493998445554059922521193396142176961919684985080578193102209561778035121887898597749117063478810263834970491062576678929021235,
    lc0⟩) (.leaf ⟨348, 16, 324, 506, 16, 2201, ⟨[[(0, 17478541647458304), (0, 2213616549417921), (41999263205, 0),
    (0, 120520), (0, 69)], [(25488218122284163, 0), (0, 1835651373581), (8593206, 0), (2726, 0)], [(26187190189099,
    0), (0, 415922683), (0, 55373), (7, 0)], [(14401647810, 0), (460434, 0), (0, 91)]], 3, 4⟩, ⟨[[(27817076526206976,
    0), (0, 3305981106703326), (47669382633, 0), (0, 1051164), (50, 0)], [(0, 13226042350286274), (0, 340536763302),
    (16208651, 0), (0, 1935)], [(9797992972113, 0), (0, 316769796), (16397, 0), (0, 1)], [(4077312907, 0), (0,
    93999), (17, 0)]], 3, 4⟩, 72057594037927936, 636333507507, 310935554998, ⟨[[(16183396836650, 0), (4419404003, 0),
    (0, 910013), (156, 0)], [(2290433929, 0), (6730445, 0), (4405, 0), (0, 1)], [(0, 7748988), (0, 19183), (0, 15)],
    [(18195, 0), (66, 0)]], 3, 4⟩, 17592186044416, 34286054,
    2757295650129044909081434637301028848966200018568510141337169643040189223589734201294922856703680341618358642975680215693312175,
    lc0⟩)) (.sx (.leaf ⟨348, 16, 354, 490, 16, 2192, ⟨[[(21592154623328256, 0), (0, 2289820506961551), (44938502067,
    0), (0, 357870), (0, 51)], [(24544523879738581, 0), (0, 1949326607631), (17054428, 0), (1775, 0)],
    [(26396014414503, 0), (0, 554616180), (0, 37611), (7, 0)], [(15355901871, 0), (316641, 0), (0, 82)]], 3, 4⟩,
    ⟨[[(0, 32588953247342592), (0, 3232466239133996), (45433060262, 0), (0, 882004), (39, 0)], [(0,
    14124252829830482), (0, 299539942452), (12239994, 0), (0, 1623)], [(9112885302968, 0), (0, 291360602), (12022,
    0), (0, 1)], [(3769248885, 0), (0, 57267), (26, 0)]], 3, 4⟩, 72057594037927936, 793840632879, 318414208105,
    ⟨[[(16049607334512, 0), (4249363339, 0), (0, 1071077), (151, 0)], [(2461660397, 0), (7262745, 0), (5156, 0), (0,
    1)], [(0, 7818175), (0, 21573), (0, 21)], [(19477, 0), (74, 0)]], 3, 4⟩, 17592186044416, 36490757,
    3875163595607162150185764843862727076382263807693548393548801460221749399412264039792575177237708657215059361458120601720005144,
    lc0⟩) (.leaf ⟨342, 16, 333, 487, 16, 2218, ⟨[[(0, 20306953141665792), (0, 2231895360829449), (42878124668, 0),
    (0, 254241), (0, 59)], [(25251693035644151, 0), (0, 1875792775604), (12643795, 0), (2261, 0)], [(26686622569462,
    0), (0, 478981302), (0, 45749), (7, 0)], [(15016310938, 0), (382838, 0), (0, 87)]], 3, 4⟩, ⟨[[(18297280027758592,
    0), (0, 3284062129955989), (46515447444, 0), (0, 963859), (45, 0)], [(0, 13496591873254700), (0, 328196570579),
    (13537435, 0), (0, 1751)], [(9717485835153, 0), (0, 303258990), (15170, 0), (0, 1)], [(4065893549, 0), (0,
    75472), (21, 0)]], 3, 4⟩, 72057594037927936, 707862478805, 308035552793, ⟨[[(16048080898337, 0), (4323549344, 0),
    (0, 975749), (122, 0)], [(2311093867, 0), (6893148, 0), (4762, 0)], [(0, 7724529), (0, 20316), (0, 18)], [(18560,
    0), (69, 0)]], 3, 4⟩, 17592186044416, 38814753,
    2883010989695578180228583538950239154479855455957828145157315308832094651476941924499124282142930359803179047617014208116592082,
    lc0⟩)))
theorem c31 : checkR job con0 false ⟨7, 9, 7, 9, 13, 17⟩ 1 30400 t31 1221 21 640 14745 251 16000 = true := by decide +kernel

def t32 : CTree :=
  .sy (.sx (.sy (.sy (.sx (.leaf ⟨723, 16, 592, 1102, 16, 4383, ⟨[[(0, 9536418126438400), (0, 2162277202517610),
    (19025113552, 0), (86015, 0), (0, 11)], [(26752983557510891, 0), (0, 848481651324), (0, 1855235), (509, 0)],
    [(12739049291543, 0), (0, 44158164), (0, 10448)], [(3200586630, 0), (88329, 0), (0, 6)]], 3, 4⟩,
    ⟨[[(32063859465797632, 0), (0, 3415663348232201), (26077950348, 0), (0, 338905), (7, 0)], [(0,
    12111460461104738), (0, 202946943461), (6043772, 0), (0, 261)], [(5268923955882, 0), (0, 91380529), (2257, 0)],
    [(1093216230, 0), (0, 15311)]], 3, 4⟩, 72057594037927936, 50821380567, 36950610811, ⟨[[(16498030805565, 0),
    (2327678338, 0), (0, 177632), (22, 0)], [(1048825770, 0), (1540053, 0), (454, 0)], [(0, 1859969), (0, 1868), (0,
    1)], [(2366, 0), (3, 0)]], 3, 4⟩, 17592186044416, 430830,
    5283168174909976885565718502738831191761556133476601599885798456514320584130749569696574982761862362434383840549434447963363442,
    lc0⟩) (.sy (.sx (.leaf ⟨1450, 16, 1162, 2220, 16, 8820, ⟨[[(0, 24054785642774528), (0, 2153035283992501),
    (9282443563, 0), (26636, 0), (0, 1)], [(27157682456199799, 0), (0, 417266899363), (0, 671562), (67, 0)],
    [(6402283390573, 0), (0, 8035490), (0, 1379)], [(788492119, 0), (11722, 0)]], 3, 4⟩, ⟨[[(0, 2120957388193792),
    (0, 3449879410781098), (13282286496, 0), (0, 88206), (1, 0)], [(0, 11822326816763275), (0, 105805124108),
    (1580811, 0), (0, 33)], [(2709086465065, 0), (0, 23493956), (286, 0)], [(281200005, 0), (0, 1934)]], 3, 4⟩,
    72057594037927936, 7041912300, 4996551709, ⟨[[(16516905164967, 0), (1168321961, 0), (0, 42121), (3, 0)],
    [(506327599, 0), (375919, 0), (55, 0)], [(0, 455024), (0, 221)], [(299, 0)]], 3, 4⟩, 17592186044416, 38002,
    5556782995634085487557460351385077365100403074976401565994567805958710621583109161137426974184203116659767076584953567599546814,
    lc0⟩) (.out ⟨1147, 16, 1123, 7512, 16, 7544, ⟨[[(0, 4209507920019456), (0, 2097723207851669), (8941259036, 0)],
    [(26769974839978971, 0), (0, 403853818268), (0, 763078)], [(6283640614549, 0), (0, 6309691), (0, 1383)]], 2, 2⟩,
    ⟨[[(29324521965486080, 0), (0, 3397810359099319), (13130635545, 0)], [(0, 11403465227207646), (0, 106024133215),
    (1578671, 0)], [(2699815619322, 0), (0, 23348598), (284, 0)]], 2, 2⟩, 72057594037927936, 7615527239917,
    4011317406016, ⟨[], 0, 0⟩, 0, 0, 0, lc0⟩ 0 562 12)) (.leaf ⟨947, 16, 763, 1795, 16, 7222, ⟨[[(17595498472210432,
    0), (0, 1413372840584604), (6111697835, 0), (16458, 0), (0, 1)], [(35743880684869090, 0), (0, 549295006500), (0,
    825395), (87, 0)], [(16935728506340, 0), (0, 22790458), (0, 3570)], [(4182534683, 0), (60677, 0), (0, 2)]], 3,
    4⟩, ⟨[[(21349238344417280, 0), (0, 2815769019659370), (10794588357, 0), (0, 71321), (1, 0)], [(0,
    19260936183585646), (0, 172312349587), (2528185, 0), (0, 53)], [(8892651771046, 0), (0, 76399032), (949, 0)],
    [(1847923869, 0), (0, 12539)]], 3, 4⟩, 72057594037927936, 49518360489, 58098000060, ⟨[[(16480480507503, 0),
    (1426145293, 0), (0, 63777), (5, 0)], [(765958893, 0), (699893, 0), (127, 0)], [(0, 1057103), (0, 634)], [(1047,
    0), (1, 0)]], 3, 4⟩, 17592186044416, 104266,
    5467831628935260437875116854443031069400313382871318724395623924946199893084125248542057801189718899916582462919321815481414858,
    lc0⟩))) (.leaf ⟨469, 16, 388, 877, 16, 3576, ⟨[[(1585546484305920, 0), (0, 1416324002913227), (12524687549, 0),
    (48316, 0), (0, 7)], [(35214856277121993, 0), (0, 1116991712606), (0, 2006551), (650, 0)], [(33869354411879, 0),
    (0, 128478618), (0, 26545), (1, 0)], [(17104190252, 0), (448870, 0), (0, 33)]], 3, 4⟩, ⟨[[(17603854792327168, 0),
    (0, 2769023138147269), (20966429806, 0), (0, 269380), (6, 0)], [(0, 19566446919092273), (0, 327720145155),
    (9376954, 0), (0, 426)], [(17272162662262, 0), (0, 293865386), (7512, 0)], [(7185457843, 0), (0, 97624), (3,
    0)]], 3, 4⟩, 72057594037927936, 484137978368, 463930916047, ⟨[[(16427283663878, 0), (2850929789, 0), (0, 274661),
    (39, 0)], [(1578646653, 0), (2885631, 0), (1079, 0)], [(0, 4332120), (0, 5467), (0, 2)], [(8256, 0), (16, 0)]],
    3, 4⟩, 17592186044416, 4389677,
    5062089583222537528724704344881667218325955102232261979446415188508285455249276612368418257150747639825889238678396181956861784,
    lc0⟩)) (.leaf ⟨349, 16, 298, 524, 16, 2210, ⟨[[(0, 4561473538916352), (0, 2146509400913989), (38737885342, 0),
    (165210, 0), (0, 84)], [(26399800519471875, 0), (0, 1718789516266), (0, 1872182), (3605, 0)], [(25927605382026,
    0), (0, 255517110), (0, 72976), (7, 0)], [(13382174700, 0), (614927, 0), (0, 97)]], 3, 4⟩, ⟨[[(26155116965568512,
    0), (0, 3384088642081304), (50373472044, 0), (0, 1247133), (56, 0)], [(0, 12241573675077963), (0, 388506167905),
    (20813004, 0), (0, 2081)], [(10540237192310, 0), (0, 349191150), (18654, 0)], [(4396312555, 0), (0, 114669), (9,
    0)]], 3, 4⟩, 72057594037927936, 464797113622, 291649140828, ⟨[[(16321297462774, 0), (4570533090, 0), (0, 770523),
    (155, 0)], [(2112557565, 0), (6297142, 0), (3943, 0), (0, 1)], [(0, 7677615), (0, 16683), (0, 10)], [(18578, 0),
    (63, 0)]], 3, 4⟩, 17592186044416, 32120627,
    4099726438131867655680452959167724922357206409657988744700375456002957458063638703934387067794734337033850881062276927104184004,
    lc0⟩)) (.sy (.sy (.out ⟨370, 16, 352, 3095, 16, 3120, ⟨[[(0, 21449687327199232), (0, 1338876569537479),
    (11123430390, 0)], [(35122612308012995, 0), (0, 1016312047050), (0, 5073377)], [(32724967379759, 0), (0,
    31733948), (0, 29833)]], 2, 2⟩, ⟨[[(23625776717070336, 0), (0, 2814404897639569), (21887999610, 0)], [(0,
    17957192792599640), (0, 364517578355), (10685941, 0)], [(18418846349981, 0), (0, 314931404), (7641, 0)]], 2, 2⟩,
    72057594037927936, 147872061701750, 76264170592879, ⟨[], 0, 0⟩, 0, 0, 0, lc0⟩ 0 705 36) (.sx (.leaf ⟨707, 16,
    566, 1083, 16, 4458, ⟨[[(24469018230374400, 0), (0, 2117572653126473), (18138399753, 0), (102209, 0), (0, 12)],
    [(27278726824021861, 0), (0, 819600133141), (0, 2756197), (533, 0)], [(12945880449067, 0), (0, 30378168), (0,
    10848)], [(3165298607, 0), (92642, 0), (0, 6)]], 3, 4⟩, ⟨[[(17934361398099968, 0), (0, 3465223550694416),
    (26515295557, 0), (0, 352467), (7, 0)], [(0, 11504421797856364), (0, 215996344098), (6144328, 0), (0, 263)],
    [(5598943311859, 0), (0, 94461360), (2408, 0)], [(1164215064, 0), (0, 15157)]], 3, 4⟩, 72057594037927936,
    40271940071, 34490154144, ⟨[[(16427018379024, 0), (2325528354, 0), (0, 166716), (17, 0)], [(977849665, 0),
    (1489437, 0), (452, 0)], [(0, 1841435), (0, 1790), (0, 1)], [(2445, 0), (3, 0)]], 3, 4⟩, 17592186044416, 432531,
    5703712056611109168070802340989001261989590590092668549585658144049649422332643406393164111459136404219449378461052686306994606,
    lc0⟩) (.out ⟨561, 16, 540, 3770, 16, 3827, ⟨[[(0, 20038636382576640), (0, 2053185369196415), (17176036825, 0)],
    [(27079164642659694, 0), (0, 783904748068), (0, 3531249)], [(12733193675461, 0), (0, 17390128), (0, 11123)]], 2,
    2⟩, ⟨[[(0, 30769957853331456), (0, 3430077620338168), (26435546715, 0)], [(0, 10887020863634228), (0,
    221149288749), (6266908, 0)], [(5673974896515, 0), (0, 95127691), (2409, 0)]], 2, 2⟩, 72057594037927936,
    30677912448608, 16750759355367, ⟨[], 0, 0⟩, 0, 0, 0, lc0⟩ 0 432 17))) (.sy (.leaf ⟨455, 16, 368, 869, 16, 3671,
    ⟨[[(35155893471285248, 0), (0, 1376143781291269), (11851907232, 0), (58414, 0), (0, 8)], [(35647740454865048, 0),
    (0, 1070937847249), (0, 3134936), (678, 0)], [(34149015551652, 0), (0, 91938697), (0, 27365), (1, 0)],
    [(16773404417, 0), (468411, 0), (0, 32)]], 3, 4⟩, ⟨[[(32716931535085568, 0), (0, 2835445089006611), (21506459452,
    0), (0, 282971), (6, 0)], [(0, 18736445848738700), (0, 352295778803), (9636481, 0), (0, 431)], [(18529412686940,
    0), (0, 306192556), (8111, 0)], [(7712784014, 0), (0, 97242), (2, 0)]], 3, 4⟩, 72057594037927936, 378159754460,
    433151851006, ⟨[[(16355639893482, 0), (2822448952, 0), (0, 252800), (29, 0)], [(1481259070, 0), (2782981, 0),
    (1061, 0)], [(0, 4360750), (0, 5276), (0, 2)], [(8707, 0), (16, 0)]], 3, 4⟩, 17592186044416, 5018538,
    5380510423225250711474253427901502026347190165332372010656775119348094083277822364346436685828028823149522920859134730340771726,
    lc0⟩) (.leaf ⟨452, 16, 373, 851, 16, 3677, ⟨[[(95026203385856, 0), (0, 1382739443307225), (12090773710, 0),
    (44287, 0), (0, 7)], [(35586454268328942, 0), (0, 1088170246406), (0, 2174977), (645, 0)], [(34559385486195, 0),
    (0, 120088140), (0, 25856), (1, 0)], [(17231420638, 0), (442182, 0), (0, 32)]], 3, 4⟩, ⟨[[(11825258334666752, 0),
    (0, 2818662958357199), (21123645912, 0), (0, 271643), (6, 0)], [(0, 18941833034236434), (0, 343506884218),
    (9003359, 0), (0, 429)], [(18407792623316, 0), (0, 298493975), (8200, 0)], [(7677138050, 0), (0, 94725), (3,
    0)]], 3, 4⟩, 72057594037927936, 426144292433, 433835050630, ⟨[[(16287531885711, 0), (2802427714, 0), (0, 263419),
    (28, 0)], [(1486759972, 0), (2797363, 0), (1087, 0)], [(0, 4372002), (0, 5502), (0, 2)], [(8380, 0), (17, 0)]],
    3, 4⟩, 17592186044416, 5202371,
    4128171780046064646891629185072874071532458556664129831222094301312091546598729286016239086506624866713145556541412098128324414,
    lc0⟩)))) (.sx (.sy (.leaf ⟨342, 16, 305, 505, 16, 2228, ⟨[[(0, 2390042185994240), (0, 2157038700720965),
    (39777676530, 0), (6787, 0), (0, 76)], [(26136797121879543, 0), (0, 1758430526887), (3245250, 0), (3166, 0)],
    [(26387497522451, 0), (0, 330792907), (0, 63375), (7, 0)], [(13988005740, 0), (532905, 0), (0, 93)]], 3, 4⟩,
    ⟨[[(2988314685313024, 0), (0, 3361586953621654), (48973730212, 0), (0, 1147362), (53, 0)], [(0,
    12532872813487290), (0, 372170961308), (17884746, 0), (0, 2004)], [(10454086753545, 0), (0, 333270022), (18493,
    0)], [(4376762567, 0), (0, 104313), (13, 0)]], 3, 4⟩, 72057594037927936, 537469513170, 296642656037,
    ⟨[[(16184487828440, 0), (4475312683, 0), (0, 828361), (130, 0)], [(2147434971, 0), (6432933, 0), (4165, 0), (0,
    1)], [(0, 7742807), (0, 18102), (0, 12)], [(18193, 0), (65, 0)]], 3, 4⟩, 17592186044416, 36923324,
    2482694639469855257907306535341349750926920460567537877369932965720242102083035445031003411018503487075541394760146980384744037,
    lc0⟩) (.leaf ⟨336, 16, 313, 485, 16, 2245, ⟨[[(0, 24667567701315584), (0, 2172665016722811), (40719935336, 0),
    (0, 137331), (0, 66)], [(25917700199043611, 0), (0, 1798886979981), (7824535, 0), (2721, 0)], [(26893774449709,
    0), (0, 399110916), (0, 53835), (7, 0)], [(14605824182, 0), (453738, 0), (0, 90)]], 3, 4⟩, ⟨[[(33717776711897088,
    0), (0, 3338538891788640), (47685792203, 0), (0, 1051756), (50, 0)], [(0, 12812465366627797), (0, 358405726135),
    (15099098, 0), (0, 1849)], [(10369912760433, 0), (0, 317473737), (17810, 0), (0, 1)], [(4361066038, 0), (0,
    89798), (17, 0)]], 3, 4⟩, 72057594037927936, 607950859963, 296740371921, ⟨[[(16047328747863, 0), (4386384899, 0),
    (0, 886946), (98, 0)], [(2165507173, 0), (6563246, 0), (4435, 0)], [(0, 7701217), (0, 19223), (0, 16)], [(18076,
    0), (66, 0)]], 3, 4⟩, 17592186044416, 41797098,
    1864126215325746442699603946361919189929109506402672053999815443413299984043903877195675261069302426255553640758152653189733317,
    lc0⟩)) (.sy (.leaf ⟨338, 16, 288, 504, 16, 2257, ⟨[[(0, 6111515823390720), (0, 2107059747023099), (37577054646,
    0), (144520, 0), (0, 82)], [(26843528206638336, 0), (0, 1683811898831), (0, 2440130), (3593, 0)],
    [(26603187316071, 0), (0, 242360060), (0, 71356), (7, 0)], [(13547970513, 0), (610022, 0), (0, 95)]], 3, 4⟩,
    ⟨[[(34512778258432000, 0), (0, 3421780015365748), (50406084260, 0), (0, 1248026), (56, 0)], [(0,
    11782541057275223), (0, 405943199728), (19755454, 0), (0, 2048)], [(11163885636186, 0), (0, 351240422), (20193,
    0)], [(4669731702, 0), (0, 109768), (10, 0)]], 3, 4⟩, 72057594037927936, 423503596492, 274749638951,
    ⟨[[(16182609343777, 0), (4526114465, 0), (0, 747771), (107, 0)], [(1980120710, 0), (6110315, 0), (3964, 0), (0,
    1)], [(0, 7645606), (0, 16736), (0, 10)], [(18423, 0), (63, 0)]], 3, 4⟩, 17592186044416, 38477062,
    2881048055743166167578577579150472637513546166571866533185963979767971588280459857141380539034721116336125012559723761284727341,
    lc0⟩) (.leaf ⟨331, 16, 295, 484, 16, 2274, ⟨[[(16376471608782848, 0), (0, 2119557802664218), (38592027066, 0),
    (0, 9321), (0, 73)], [(26629975896314688, 0), (0, 1724596202969), (2651260, 0), (3161, 0)], [(27107703548871, 0),
    (0, 315962206), (0, 61862), (7, 0)], [(14166971448, 0), (530270, 0), (0, 92)]], 3, 4⟩, ⟨[[(31439889330323456, 0),
    (0, 3397486449760655), (48977177359, 0), (0, 1145089), (55, 0)], [(0, 12071848290601010), (0, 390545641065),
    (16895079, 0), (0, 1920)], [(11075430772360, 0), (0, 333593276), (19995, 0)], [(4652210056, 0), (0, 98741), (14,
    0)]], 3, 4⟩, 72057594037927936, 497077736167, 278872379282, ⟨[[(16046331153488, 0), (4436415660, 0), (0, 803824),
    (79, 0)], [(2016261072, 0), (6247573, 0), (4167, 0)], [(0, 7681934), (0, 18116), (0, 13)], [(17957, 0), (64,
    0)]], 3, 4⟩, 17592186044416, 44462586,
    1261985966290297476600692773401707573691932174590101136346629173668407451579616852003048387208222284189988274244192760714479911,
    lc0⟩)))
theorem c32 : checkR job con0 false ⟨7, 9, 7, 9, 13, 17⟩ 1 30400 t32 1263 21 640 14745 251 16000 = true := by decide +kernel

def t33 : CTree :=
  .sy (.out ⟨71, 16, 53, 468, 16, 462, ⟨[[(6449569156872192, 0), (0, 1792693512850864), (83794787249, 0)],
    [(26924062174414208, 0), (0, 4484771928950), (0, 773408160)], [(89288400011548, 0), (7137587865, 0), (0,
    7897288)]], 2, 2⟩, ⟨[[(30105069449093120, 0), (0, 3513644949299986), (242230100997, 0)], [(0, 7570349527948742),
    (0, 2344333124570), (553890000, 0)], [(51544853482676, 0), (0, 7074810816), (839506, 0)]], 2, 2⟩,
    72057594037927936, 1991710997488125, 1280544658799931, ⟨[], 0, 0⟩, 0, 0, 0, lc0⟩ 0 107 36) (.sx (.sy (.sx (.sy
    (.out ⟨280, 16, 255, 1893, 16, 1920, ⟨[[(0, 16780814482268160), (0, 1993791322171514), (31705689972, 0)],
    [(27310089618289344, 0), (0, 1477642482949), (0, 20674976)], [(25139857711696, 0), (30435873, 0), (0, 95960)]],
    2, 2⟩, ⟨[[(0, 28567878868254720), (0, 3469682516911639), (54434017844, 0)], [(0, 10133263234377784), (0,
    474919320312), (27139065, 0)], [(11889624591497, 0), (0, 397651832), (19296, 0)]], 2, 2⟩, 72057594037927936,
    121444306659918, 70886795092006, ⟨[], 0, 0⟩, 0, 0, 0, lc0⟩ 0 114 11) (.sy (.out ⟨357, 16, 338, 3138, 16, 3214,
    ⟨[[(7457901806010368, 0), (0, 1305386478398695), (10718204678, 0)], [(35458286026362746, 0), (0, 988321004507),
    (0, 5151731)], [(33320325747049, 0), (0, 25603704), (0, 29006)]], 2, 2⟩, ⟨[[(0, 2192038383517696), (0,
    2870280697316153), (22075567089, 0)], [(0, 17255716850101303), (0, 381113357302), (10398984, 0)],
    [(19656763034029, 0), (0, 320407286), (8400, 0)]], 2, 2⟩, 72057594037927936, 148117979552690, 80653418573904,
    ⟨[], 0, 0⟩, 0, 0, 0, lc0⟩ 0 451 25) (.leaf ⟨443, 16, 349, 863, 16, 3775, ⟨[[(9650110717198336, 0), (0,
    1336698277591575), (11182416464, 0), (68849, 0), (0, 8)], [(36098722717457445, 0), (0, 1025273242536), (0,
    4228829), (703, 0)], [(34384054213201, 0), (0, 55563782), (0, 28078), (1, 0)], [(16368421277, 0), (489080, 0),
    (0, 32)]], 3, 4⟩, ⟨[[(0, 1045900926533632), (0, 2909145976458356), (22089915594, 0), (0, 297282), (6, 0)], [(0,
    17816853171940145), (0, 378914871702), (9964939, 0), (0, 435)], [(19914271171472, 0), (0, 318548031), (8741, 0)],
    [(8234684222, 0), (0, 93964), (2, 0)]], 3, 4⟩, 72057594037927936, 252109404827, 389387359401, ⟨[[(16287729091705,
    0), (2790732964, 0), (0, 229193), (21, 0)], [(1371830167, 0), (2666582, 0), (1039, 0)], [(0, 4349897), (0, 5005),
    (0, 2)], [(9259, 0), (16, 0)]], 3, 4⟩, 17592186044416, 5697365,
    5684134538967843640775400653583717764320171237053352558700014558299943999399609245658189104602259816213410865775699651746354383,
    lc0⟩))) (.out ⟨189, 16, 167, 1049, 16, 1074, ⟨[[(27648718282086400, 0), (0, 2672247293338776), (81890571874, 0)],
    [(19065347302696082, 0), (0, 1943932346225), (0, 66316630)], [(17430684416875, 0), (118458913, 0), (0, 269242)]],
    2, 2⟩, ⟨[[(0, 17076160219561984), (0, 3873924164782537), (121747134952, 0)], [(0, 5165446432803257), (0,
    553595608725), (61068506, 0)], [(6944195397713, 0), (0, 449059460), (44914, 0)]], 2, 2⟩, 72057594037927936,
    150678611574734, 141893266572489, ⟨[], 0, 0⟩, 0, 0, 0, lc0⟩ 0 112 15)) (.sx (.sy (.leaf ⟨333, 16, 271, 505, 16,
    2288, ⟨[[(22874058564022272, 0), (0, 2049588078799120), (35137386292, 0), (290571, 0), (0, 87)],
    [(27429694284579099, 0), (0, 1600345317646), (0, 8417165), (3986, 0)], [(26654919946441, 0), (0, 148742462), (0,
    78707), (7, 0)], [(12982361461, 0), (686981, 0), (0, 94)]], 3, 4⟩, ⟨[[(0, 19600020522303488), (0,
    3486698455523142), (51976342311, 0), (0, 1352326), (59, 0)], [(0, 10968284703316617), (0, 442016437611),
    (21794574, 0), (0, 2070)], [(11927537894786, 0), (0, 370025554), (21563, 0)], [(4948922499, 0), (0, 109227), (7,
    0)]], 3, 4⟩, 72057594037927936, 292792333324, 246383572799, ⟨[[(16185203721064, 0), (4564563925, 0), (0, 670036),
    (87, 0)], [(1825651648, 0), (5850382, 0), (3849, 0), (0, 1)], [(0, 7601595), (0, 15441), (0, 7)], [(19670, 0),
    (64, 0)]], 3, 4⟩, 17592186044416, 41672235,
    4422212220276690850713346112221907173777177814146597267116752282691354276816242083827147079245820344793836984167916423675379677,
    lc0⟩) (.leaf ⟨327, 16, 278, 484, 16, 2306, ⟨[[(29257971318882304, 0), (0, 2066158972847551), (36363682739, 0),
    (128746, 0), (0, 79)], [(27312410631583293, 0), (0, 1647390753793), (0, 2864903), (3576, 0)], [(27247431652922,
    0), (0, 227974135), (0, 69513), (7, 0)], [(13647531329, 0), (610222, 0), (0, 92)]], 3, 4⟩, ⟨[[(28673034872418304,
    0), (0, 3462534241421608), (50422697374, 0), (0, 1243516), (59, 0)], [(0, 11272936962527208), (0, 424992311205),
    (18903261, 0), (0, 1968)], [(11839652726866, 0), (0, 351037019), (21811, 0)], [(4934739231, 0), (0, 100991), (11,
    0)]], 3, 4⟩, 72057594037927936, 366440229391, 252302368081, ⟨[[(16046217357876, 0), (4478893697, 0), (0, 721051),
    (64, 0)], [(1852160580, 0), (5926029, 0), (3954, 0)], [(0, 7630335), (0, 16838), (0, 9)], [(18329, 0), (63, 0)]],
    3, 4⟩, 17592186044416, 46665506,
    1821363146271269234302601303249973155090145905143133205862903183956740676858009483951507542301780046994170886889540236995650486,
    lc0⟩)) (.sy (.sy (.out ⟨346, 16, 325, 3187, 16, 3316, ⟨[[(9948933934989312, 0), (0, 1274625347744122),
    (10328985077, 0)], [(35905129851523682, 0), (0, 962328753725), (0, 5187768)], [(33945193457695, 0), (0,
    18728613), (0, 28139)]], 2, 2⟩, ⟨[[(0, 35639568710631424), (0, 2932782766006143), (22282749277, 0)], [(0,
    16466994071122106), (0, 399752548506), (10171914, 0)], [(21019347347925, 0), (0, 324083859), (9241, 0)]], 2, 2⟩,
    72057594037927936, 147793585722831, 84906918868836, ⟨[], 0, 0⟩, 0, 0, 0, lc0⟩ 0 261 17) (.leaf ⟨428, 16, 335,
    838, 16, 3895, ⟨[[(5241888946307072, 0), (0, 1303098198291829), (10756528297, 0), (65308, 0), (0, 7)],
    [(36510693962224250, 0), (0, 996761875256), (0, 4270523), (695, 0)], [(34972815253602, 0), (0, 47503038), (0,
    27173), (1, 0)], [(16322368901, 0), (486857, 0), (0, 30)]], 3, 4⟩, ⟨[[(34310249743712256, 0), (0,
    2972921605298613), (22298495980, 0), (0, 299666), (6, 0)], [(0, 17021765339051160), (0, 398204448679), (9735553,
    0), (0, 431)], [(21305344858979, 0), (0, 321463416), (9588, 0)], [(8712003151, 0), (0, 84162), (3, 0)]], 3, 4⟩,
    72057594037927936, 151858015526, 336019839619, ⟨[[(16148858609379, 0), (2734592878, 0), (0, 214956), (13, 0)],
    [(1266376351, 0), (2556271, 0), (1038, 0)], [(0, 4369990), (0, 4975), (0, 1)], [(9479, 0), (17, 0)]], 3, 4⟩,
    17592186044416, 6542801,
    4577991943549781077916622104175084257158103269654522243697125863483767496360521585249293417429055428682484847729898510174670275,
    lc0⟩)) (.leaf ⟨324, 16, 262, 485, 16, 2340, ⟨[[(14967451493793792, 0), (0, 2012785873286511), (34035375538, 0),
    (275259, 0), (0, 85)], [(27965958876508160, 0), (0, 1567380190622), (0, 8666888), (3965, 0)], [(27312246742107,
    0), (0, 135146524), (0, 76638), (7, 0)], [(13039129222, 0), (692210, 0), (0, 90)]], 3, 4⟩, ⟨[[(12376808820404224,
    0), (0, 3532335072896254), (52011579661, 0), (0, 1345784), (63, 0)], [(0, 10403102784463043), (0, 461713841649),
    (21094238, 0), (0, 1996)], [(12657476947009, 0), (0, 368767880), (23352, 0)], [(5196853000, 0), (0, 95453), (9,
    0)]], 3, 4⟩, 72057594037927936, 217392649770, 215503821108, ⟨[[(16047559918414, 0), (4515290351, 0), (0, 638985),
    (51, 0)], [(1674729483, 0), (5611773, 0), (3824, 0)], [(0, 7510478), (0, 15322), (0, 6)], [(19472, 0), (64, 0)]],
    3, 4⟩, 17592186044416, 48685026,
    3054077344872559946565869206090172073375239999695775674200619282057820856184833496239148450916523220713952176592122417651515000,
    lc0⟩)))) (.sy (.out ⟨136, 16, 110, 962, 16, 989, ⟨[[(26884642345803776, 0), (0, 1840313532294366), (50439857931,
    0)], [(28128980678419365, 0), (0, 2521142166003), (0, 136283060)], [(49710774335300, 0), (971242507, 0), (0,
    844723)]], 2, 2⟩, ⟨[[(0, 2671711510847488), (0, 3601110919314179), (115819054748, 0)], [(0, 7839412167278548),
    (0, 1126071635136), (122928899, 0)], [(27569995512891, 0), (0, 1723604489), (166338, 0)]], 2, 2⟩,
    72057594037927936, 473037315310151, 317112922845287, ⟨[], 0, 0⟩, 0, 0, 0, lc0⟩ 0 45 11) (.sx (.sy (.out ⟨265, 16,
    237, 1921, 16, 2011, ⟨[[(0, 2916135974383616), (0, 1910537166983138), (29574947944, 0)], [(28146353503030004, 0),
    (0, 1407154111962), (0, 20724441)], [(26193239853879, 0), (49358365, 0), (0, 90532)]], 2, 2⟩, ⟨[[(0,
    18440369478729728), (0, 3564494170705671), (54544411083, 0)], [(0, 8952572292607261), (0, 511823025171),
    (25822488, 0)], [(13360791575058, 0), (0, 399275753), (23240, 0)]], 2, 2⟩, 72057594037927936, 120378342528661,
    74925651118230, ⟨[], 0, 0⟩, 0, 0, 0, lc0⟩ 0 80 9) (.leaf ⟨322, 16, 247, 487, 16, 2377, ⟨[[(0, 24758526200836096),
    (0, 1959785321471747), (31609817661, 0), (428886, 0), (0, 90)], [(28592919410931938, 0), (0, 1484683325657), (0,
    14694441), (4333, 0)], [(27301438758515, 0), (0, 37615829), (0, 83133), (7, 0)], [(12331964618, 0), (774545, 0),
    (0, 88)]], 3, 4⟩, ⟨[[(288775384039424, 0), (0, 3608554577405504), (53776420173, 0), (0, 1451774), (67, 0)], [(0,
    9459336074940773), (0, 500970319909), (23464399, 0), (0, 2003)], [(13532646796324, 0), (0, 385931897), (24745,
    0)], [(5427100050, 0), (0, 81568), (8, 0)]], 3, 4⟩, 72057594037927936, 127730460206, 165433808094,
    ⟨[[(16049007312232, 0), (4543967505, 0), (0, 556359), (37, 0)], [(1485168842, 0), (5313846, 0), (3776, 0), (0,
    1)], [(0, 7255108), (0, 13488), (0, 4)], [(21649, 0), (64, 0)]], 3, 4⟩, 17592186044416, 50886854,
    5302424377410875408162616740376630606145944223150153133258695680424428231131011543836159642961039805185158209287800353505078740,
    lc0⟩)) (.out ⟨182, 16, 157, 1053, 16, 1112, ⟨[[(21192531851528192, 0), (0, 2590189342092803), (77116652404, 0)],
    [(19909283458194737, 0), (0, 1870580316029), (0, 66059582)], [(18322678931826, 0), (148748522, 0), (0, 254706)]],
    2, 2⟩, ⟨[[(0, 35385448830451712), (0, 3936023600696407), (120482937197, 0)], [(0, 4388950635461747), (0,
    588557218590), (58252703, 0)], [(7705834111583, 0), (0, 438552651), (54082, 0)]], 2, 2⟩, 72057594037927936,
    147102590577436, 142239513069662, ⟨[], 0, 0⟩, 0, 0, 0, lc0⟩ 0 70 11))))
theorem c33 : checkR job con0 false ⟨7, 9, 7, 9, 13, 17⟩ 1 30400 t33 663 21 320 7247 251 8000 = true := by decide +kernel

def t34 : CTree :=
  .sx (.out ⟨50, 16, 32, 254, 16, 259, ⟨[[(0, 22277895924354048), (0, 2339991593315491), (151037895965, 0)],
    [(20597678535101126, 0), (0, 5010410925430), (0, 2854968431)], [(65042338229311, 0), (15399606048, 0), (0,
    23068579)]], 2, 2⟩, ⟨[[(0, 5287209418549248), (0, 3920736335992214), (545624859245, 0)], [(0, 1971569124376866),
    (0, 2980297053782), (1276975143, 0)], [(33543477855212, 0), (0, 7783546750), (2410374, 0)]], 2, 2⟩,
    72057594037927936, 4779805564084235, 3034645198527581, ⟨[], 0, 0⟩, 0, 0, 0, lc0⟩ 0 64 36) (.out ⟨55, 16, 28, 248,
    16, 253, ⟨[[(30882225749417472, 0), (0, 2200241300681669), (0, 12375985955)], [(23041434599632847, 0), (0,
    2694273054996), (0, 4481633717)], [(61307170216658, 0), (27403255421, 0), (0, 27142158)]], 2, 2⟩, ⟨[[(0,
    17089785908551680), (0, 3965412605378375), (589514663840, 0)], [(1019282246140230, 0), (0, 3534040647300),
    (1443777352, 0)], [(36898302633486, 0), (0, 7098752003), (2276669, 0)]], 2, 2⟩, 72057594037927936,
    5861479230427789, 3008231603513096, ⟨[], 0, 0⟩, 0, 0, 0, lc0⟩ 0 11 11)
theorem c34 : checkR job con0 false ⟨7, 9, 7, 9, 13, 17⟩ 1 30400 t34 363 21 160 7247 251 8000 = true := by decide +kernel

def t35 : CTree :=
  .sx (.sy (.sx (.leaf ⟨459, 16, 726, 404, 16, 1388, ⟨[[(6650910183366656, 0), (0, 2580112713888868), (61638083812,
    0), (594804, 0), (181, 0)], [(19930151280947157, 0), (0, 4545051201893), (94044583, 0), (0, 4454)],
    [(47835234926943, 0), (0, 4676377489), (0, 81599), (0, 26)], [(94870494561, 0), (0, 2604133), (223, 0)]], 3, 4⟩,
    ⟨[[(17517372132540416, 0), (0, 1982464193731829), (18667892289, 0), (0, 1343217), (0, 172)], [(0,
    29062481374929140), (173617079254, 0), (66233522, 0), (8761, 0), (1, 0)], [(14996174369641, 0), (0, 832983211),
    (0, 145213), (0, 19)], [(0, 5592802060), (0, 982721), (0, 120)]], 3, 4⟩, 72057594037927936, 19581276927067,
    5136911423006, ⟨[[(15914026725788, 0), (3301958685, 0), (0, 4479922), (15855, 0), (97, 0)], [(4835352596, 0),
    (19874865, 0), (1168, 0), (0, 285), (0, 2)], [(0, 13096861), (0, 54049), (187, 0), (3, 0)], [(39342, 0), (109,
    0), (0, 2)]], 3, 4⟩, 17592186044416, 25298465,
    5310364778069215055162496034643200589018607892784646533024018220149183210531817714495895221801253205729549650043402661634557972,
    lc0⟩) (.sx (.leaf ⟨549, 16, 851, 550, 16, 1949, ⟨[[(12365492668637184, 0), (0, 3197696108643367), (75637157267,
    0), (504264, 0), (205, 0)], [(13619854497098712, 0), (0, 2840708789108), (52540105, 0), (0, 3485)],
    [(16819031903906, 0), (0, 1435307231), (0, 16691), (0, 6)], [(15761572660, 0), (0, 306273), (43, 0)]], 3, 4⟩,
    ⟨[[(5544377162702848, 0), (0, 2777253078846938), (28936261282, 0), (0, 1526725), (0, 196)], [(0,
    19750680799888713), (83326469495, 0), (39902784, 0), (5243, 0), (1, 0)], [(5130074376346, 0), (0, 317232769), (0,
    53187), (0, 8)], [(0, 442685019), (0, 91706), (0, 3)]], 3, 4⟩, 72057594037927936, 1552001205814, 480322075362,
    ⟨[[(15914582590268, 0), (2562712796, 0), (0, 2473346), (3457, 0), (18, 0)], [(3726893251, 0), (11355823, 0),
    (5036, 0), (0, 51)], [(0, 8305367), (0, 27723), (24, 0)], [(20702, 0), (62, 0)]], 3, 4⟩, 17592186044416,
    10348479,
    5206221841125765279095730246130685879093411135367814204073597890432964366853727104989942940422189086430024910427853911542210165,
    lc0⟩) (.leaf ⟨527, 16, 805, 543, 16, 1966, ⟨[[(28911773954662400, 0), (0, 3140123913914761), (73611297555, 0),
    (328873, 0), (185, 0)], [(14301134696391625, 0), (0, 2802659437129), (48595636, 0), (0, 3741)], [(17865737802293,
    0), (0, 1391405663), (0, 10437), (0, 5)], [(16143135418, 0), (0, 245431), (44, 0)]], 3, 4⟩,
    ⟨[[(28017830715023360, 0), (0, 2798517623827186), (30784577424, 0), (0, 1331438), (0, 169)], [(0,
    19490012144385326), (56771190408, 0), (35751152, 0), (4642, 0), (1, 0)], [(5140657729630, 0), (0, 328562400), (0,
    53245), (0, 8)], [(0, 97719514), (0, 44366), (9, 0)]], 3, 4⟩, 72057594037927936, 1528469017899, 467009166334,
    ⟨[[(15912922062892, 0), (2687648384, 0), (0, 2483068), (2338, 0), (12, 0)], [(3667431784, 0), (11292922, 0),
    (6985, 0), (0, 34)], [(0, 8397531), (0, 29378), (6, 0)], [(21545, 0), (75, 0)]], 3, 4⟩, 17592186044416, 10957112,
    5037360134807772493719576326550802781828348060825704983589061811365859194215055303336378055603151997444448385495697108039704024,
    lc0⟩))) (.sx (.sx (.leaf ⟨600, 16, 993, 548, 16, 1926, ⟨[[(15439579864104960, 0), (0, 3380355758240511),
    (84662438554, 0), (1427894, 0), (304, 0)], [(11453307986597629, 0), (0, 2977960539720), (61489857, 0), (0,
    2697)], [(14559897320076, 0), (0, 1607865828), (0, 45763), (0, 12)], [(15298527519, 0), (0, 438198), (41, 0)]],
    3, 4⟩, ⟨[[(0, 18749898153754624), (0, 2730166649672704), (21497490825, 0), (0, 2566931), (0, 316)], [(0,
    20304119909479982), (185799869873, 0), (58852818, 0), (8056, 0), (1, 0)], [(5116665141878, 0), (0, 331475320),
    (0, 59242), (0, 7)], [(0, 1259506294), (0, 230798), (0, 37)]], 3, 4⟩, 72057594037927936, 1698455584251,
    528419989847, ⟨[[(15783490813437, 0), (2133146849, 0), (0, 2578877), (6722, 0), (35, 0)], [(3816041309, 0),
    (11734525, 0), (444, 0), (0, 90)], [(0, 8173192), (0, 25167), (64, 0), (1, 0)], [(19973, 0), (39, 0)]], 3, 4⟩,
    17592186044416, 9788335,
    4614690893628180134069940980023522016567631563732628690928083034308855463797945679911891898246305315476646555139834010786885539,
    lc0⟩) (.leaf ⟨575, 16, 941, 541, 16, 1945, ⟨[[(33311832921620480, 0), (0, 3324579993659712), (82602961712, 0),
    (1226939, 0), (286, 0)], [(12091612041866429, 0), (0, 2952078460151), (54859338, 0), (0, 3441)],
    [(15709040580517, 0), (0, 1571647765), (0, 37560), (0, 10)], [(15855521052, 0), (0, 346973), (52, 0)]], 3, 4⟩,
    ⟨[[(22855661040746496, 0), (0, 2749825610433643), (24097772267, 0), (0, 2264238), (0, 281)], [(0,
    20076406127131654), (158407046878, 0), (54239109, 0), (7473, 0), (1, 0)], [(5032013878923, 0), (0, 359619886),
    (0, 63521), (0, 8)], [(0, 874613585), (0, 162356), (0, 22)]], 3, 4⟩, 72057594037927936, 1684984109131,
    520502665435, ⟨[[(15781407427946, 0), (2255025787, 0), (0, 2717855), (4555, 0), (25, 0)], [(3765463685, 0),
    (11843721, 0), (4036, 0), (0, 64)], [(0, 8324319), (0, 28092), (39, 0)], [(21160, 0), (57, 0)]], 3, 4⟩,
    17592186044416, 10712357,
    5294442132264074465833283343982658137732175260628846143737509863248186941042951422526163860712333733826394232895939145836482726,
    lc0⟩)) (.sx (.leaf ⟨551, 16, 890, 535, 16, 1963, ⟨[[(22978607437012992, 0), (0, 3264308305071867), (80246498452,
    0), (1007585, 0), (265, 0)], [(12766016717201806, 0), (0, 2918574331908), (49183199, 0), (0, 4009)],
    [(16831000764238, 0), (0, 1523973969), (0, 28623), (0, 8)], [(16335610816, 0), (0, 268041), (59, 0)]], 3, 4⟩,
    ⟨[[(0, 25929695957131264), (0, 2769210313229168), (26505490483, 0), (0, 1983435), (0, 248)], [(0,
    19839580857556279), (128638562790, 0), (49267477, 0), (6820, 0), (1, 0)], [(4992034370812, 0), (0, 379324693),
    (0, 65900), (0, 9)], [(0, 493213792), (0, 96982), (0, 7)]], 3, 4⟩, 72057594037927936, 1661802393493,
    509174959219, ⟨[[(15783580950643, 0), (2381028026, 0), (0, 2752989), (3125, 0), (17, 0)], [(3720528928, 0),
    (11847956, 0), (6451, 0), (0, 46)], [(0, 8460565), (0, 30288), (20, 0)], [(22170, 0), (73, 0)]], 3, 4⟩,
    17592186044416, 11510092,
    5202256089632288866243845373775739841948944623516550458971781670093770601031451657691531055455867656468271373633943071927574736,
    lc0⟩) (.leaf ⟨529, 16, 842, 528, 16, 1981, ⟨[[(2194634960904192, 0), (0, 3206785889041327), (77829420974, 0),
    (780679, 0), (242, 0)], [(13499150981355342, 0), (0, 2883526589100), (44566426, 0), (0, 4406)], [(17952883357697,
    0), (0, 1470438814), (0, 19554), (0, 7)], [(16769201751, 0), (0, 202315), (63, 0)]], 3, 4⟩, ⟨[[(0,
    313482009993216), (0, 2789831950549658), (28719191475, 0), (0, 1728505), (0, 216)], [(0, 19600285520491523),
    (97255931335, 0), (44122036, 0), (6119, 0), (1, 0)], [(4999127985380, 0), (0, 391199571), (0, 66467), (0, 9)],
    [(0, 118792923), (0, 36563), (7, 0)]], 3, 4⟩, 72057594037927936, 1629434425248, 495586483228, ⟨[[(15783790133983,
    0), (2517365843, 0), (0, 2735655), (2100, 0), (11, 0)], [(3650553221, 0), (11725351, 0), (8235, 0), (0, 31)],
    [(0, 8497527), (0, 31790), (2, 0)], [(22761, 0), (87, 0)]], 3, 4⟩, 17592186044416, 12002980,
    5177104772765717572114380162235649900303159723556318032166399448109911397642345310301290083093349616655695411948080377104954511,
    lc0⟩)))) (.sx (.sy (.sx (.leaf ⟨507, 16, 761, 537, 16, 1984, ⟨[[(0, 8370767506890752), (0, 3082104313634147),
    (71502979036, 0), (155302, 0), (165, 0)], [(15021025546196861, 0), (0, 2761118243812), (45332636, 0), (0, 3855)],
    [(18887754176511, 0), (0, 1342108059), (0, 4572), (0, 3)], [(16468634325, 0), (0, 193182), (42, 0)]], 3, 4⟩,
    ⟨[[(1930435131924480, 0), (0, 2822321027047627), (32487801417, 0), (0, 1160822), (0, 144)], [(0,
    19232604426192652), (29279651859, 0), (31630960, 0), (4021, 0), (1, 0)], [(5196816618851, 0), (0, 334477410), (0,
    51943), (0, 8)], [(240743127, 0), (0, 2498), (19, 0)]], 3, 4⟩, 72057594037927936, 1493388400054, 454829255862,
    ⟨[[(15915744411306, 0), (2817787989, 0), (0, 2432768), (1595, 0), (8, 0)], [(3596847733, 0), (11113638, 0),
    (8156, 0), (0, 22)], [(0, 8424638), (0, 30248), (0, 9)], [(22065, 0), (85, 0)]], 3, 4⟩, 17592186044416, 11492595,
    4913076886707900049713750691582290596130483256415901395301353794255389874360165299734073462797803011083882471192693433986684457,
    lc0⟩) (.leaf ⟨487, 16, 718, 530, 16, 2000, ⟨[[(0, 3196299423862784), (0, 3019612112856212), (69254418456, 0), (0,
    10652), (143, 0)], [(15753478503263019, 0), (0, 2712373131406), (42615609, 0), (0, 3828)], [(19852057806128, 0),
    (0, 1287085627), (561, 0), (0, 2)], [(16714726371, 0), (0, 148572), (37, 0)]], 3, 4⟩, ⟨[[(13386630929891328, 0),
    (0, 2844436283258252), (33998261972, 0), (0, 1013941), (0, 120)], [(0, 18945783306493745), (1245535031, 0),
    (27607036, 0), (3389, 0), (1, 0)], [(5290140652379, 0), (0, 335182752), (0, 49329), (0, 8)], [(571077270, 0),
    (32875, 0), (28, 0)]], 3, 4⟩, 72057594037927936, 1457590073823, 443550193894, ⟨[[(15914932005831, 0),
    (2946934480, 0), (0, 2363390), (1116, 0), (5, 0)], [(3529317455, 0), (10928772, 0), (8871, 0), (0, 14)], [(0,
    8465218), (0, 30861), (0, 19)], [(22613, 0), (93, 0)]], 3, 4⟩, 17592186044416, 12299775,
    4335423737302475168737088632748033773521554883890211709867541165853172639044309534621252777774935062898999588449039936576136320,
    lc0⟩)) (.leaf ⟨378, 16, 587, 379, 16, 1467, ⟨[[(0, 16389370239750144), (0, 2366356301819505), (56173187173, 0),
    (334598, 0), (156, 0)], [(22265482283604264, 0), (0, 4281808987826), (59772167, 0), (0, 7097)], [(59438410265832,
    0), (0, 4189430430), (0, 20340), (0, 12)], [(104974768144, 0), (0, 769143), (366, 0)]], 3, 4⟩, ⟨[[(0,
    35088398148911104), (0, 2062583819232790), (23132907564, 0), (0, 1021685), (0, 125)], [(0, 28095363771294031),
    (70877184774, 0), (53185159, 0), (7339, 0), (1, 0)], [(14893947227641, 0), (0, 1156703370), (0, 187510), (0,
    27)], [(2481917132, 0), (241995, 0), (152, 0)]], 3, 4⟩, 72057594037927936, 18552943192708, 5027512972700,
    ⟨[[(15786652533548, 0), (3717951681, 0), (0, 4922399), (3123, 0), (20, 0)], [(4679739456, 0), (20624322, 0),
    (23924, 0), (0, 59)], [(0, 14822988), (0, 78339), (0, 58), (1, 0)], [(53530, 0), (321, 0)]], 3, 4⟩,
    17592186044416, 56110073,
    5238390691637286436009770255523636819521628146012342873143361814150531813772839774887759762892295044743914524766687292497897362,
    lc0⟩)) (.sy (.leaf ⟨338, 16, 484, 384, 16, 1494, ⟨[[(22768177139011584, 0), (0, 2154160137468318), (48501311603,
    0), (0, 172028), (82, 0)], [(24888990729061489, 0), (0, 3877565435973), (58106851, 0), (0, 5241), (0, 1)],
    [(62509910491640, 0), (0, 3534291493), (18429, 0), (2, 0)], [(100009488290, 0), (0, 553628), (151, 0)]], 3, 4⟩,
    ⟨[[(0, 7588435282599936), (0, 2125720867761261), (26555527584, 0), (0, 620683), (0, 66)], [(0,
    27296193357221288), (0, 60396383672), (32533784, 0), (3633, 0), (1, 0)], [(16262536890085, 0), (0, 971286993),
    (0, 128150), (0, 22)], [(6197638344, 0), (425356, 0), (233, 0)]], 3, 4⟩, 72057594037927936, 15951738983356,
    4351409166030, ⟨[[(15914135548311, 0), (4244159444, 0), (0, 4084924), (1759, 0), (9, 0)], [(4657855929, 0),
    (19507277, 0), (23095, 0), (0, 24)], [(0, 15707976), (0, 77837), (0, 100)], [(58437, 0), (343, 0)]], 3, 4⟩,
    17592186044416, 80990159,
    3548152404106509311196182142496665456323211634867671444354066487641358546600990031366077743704705310468252943610632543651975928,
    lc0⟩) (.leaf ⟨340, 16, 509, 371, 16, 1503, ⟨[[(13450885352833024, 0), (0, 2214307999478466), (50877783150, 0),
    (19148, 0), (114, 0)], [(24142164735707569, 0), (0, 4020942493498), (51980853, 0), (0, 6621), (0, 1)],
    [(63877913891421, 0), (0, 3696609792), (20243, 0), (0, 1)], [(104932133904, 0), (0, 367771), (270, 0)]], 3, 4⟩,
    ⟨[[(28910709652721664, 0), (0, 2112212308877292), (25664157492, 0), (0, 779359), (0, 89)], [(0,
    27482371890155727), (0, 24753758184), (39394389, 0), (5242, 0), (1, 0)], [(15834587076060, 0), (0, 1124178155),
    (0, 164973), (0, 26)], [(6511605999, 0), (679605, 0), (267, 0)]], 3, 4⟩, 72057594037927936, 16911504115232,
    4564429541325, ⟨[[(15781074427641, 0), (4051763725, 0), (0, 4478242), (1561, 0), (8, 0)], [(4594270829, 0),
    (20057407, 0), (25908, 0), (0, 24)], [(0, 15564467), (0, 82336), (0, 118)], [(58952, 0), (382, 0)]], 3, 4⟩,
    17592186044416, 82524522,
    3065245079023819667111719385853011285565172417971151826690866477959619041027597883563977065898118197682953364295676439420328785,
    lc0⟩)))
theorem c35 : checkR job con0 false ⟨7, 9, 7, 9, 13, 17⟩ 1 30400 t35 237 21 160 30243 251 32000 = true := by decide +kernel

def t36 : CTree :=
  .sx (.sy (.sx (.sx (.leaf ⟨605, 16, 1042, 532, 16, 1939, ⟨[[(31264724098375680, 0), (0, 3456662764604589),
    (91612366886, 0), (2205815, 0), (387, 0)], [(10465674502532681, 0), (0, 3062262667804), (60278352, 0), (0,
    2797)], [(14417667642456, 0), (0, 1745239733), (0, 68272), (0, 15)], [(15834352464, 0), (0, 411490), (53, 0)]],
    3, 4⟩, ⟨[[(25887400180703232, 0), (0, 2728988649816151), (17235710757, 0), (0, 3290842), (0, 386)], [(0,
    20331247918444443), (253164186092, 0), (72954481, 0), (10147, 0), (1, 0)], [(4967667170942, 0), (0, 399527230),
    (0, 71768), (0, 9)], [(0, 1394915807), (0, 275214), (0, 49)]], 3, 4⟩, 72057594037927936, 1841809809417,
    588433698838, ⟨[[(15652122337184, 0), (1939481849, 0), (0, 2947584), (5860, 0), (33, 0)], [(3793858443, 0),
    (12292412, 0), (2319, 0), (0, 75)], [(0, 8363046), (0, 27898), (60, 0)], [(21962, 0), (47, 0), (0, 1)]], 3, 4⟩,
    17592186044416, 11390578,
    5480478026373282505149177233592484495372457660280817978236215376730732645458362950587848295501468765186321879006216771419305063,
    lc0⟩) (.leaf ⟨580, 16, 987, 526, 16, 1958, ⟨[[(0, 28431702770049024), (0, 3398979008102285), (89064826816, 0),
    (1953813, 0), (365, 0)], [(11142351335921198, 0), (0, 3041394127936), (51962795, 0), (0, 3793)],
    [(15638087068128, 0), (0, 1696636719), (0, 57180), (0, 13)], [(16462877382, 0), (0, 302062), (68, 0)]], 3, 4⟩,
    ⟨[[(0, 19404489611755520), (0, 2745723155891970), (20367582932, 0), (0, 2908794), (0, 344)], [(0,
    20115771089995800), (220443023264, 0), (67355065, 0), (9469, 0), (1, 0)], [(4866704407587, 0), (0, 432837926),
    (0, 77469), (0, 10)], [(0, 968660555), (0, 189376), (0, 30)]], 3, 4⟩, 72057594037927936, 1819621722893,
    572656707718, ⟨[[(15656567278260, 0), (2074497246, 0), (0, 3025501), (4057, 0), (22, 0)], [(3740722588, 0),
    (12335399, 0), (5343, 0), (0, 56)], [(0, 8468180), (0, 30684), (39, 0)], [(22968, 0), (67, 0)]], 3, 4⟩,
    17592186044416, 11991639,
    5540817306140688291724280593408188942375590450918413165260858716966207434336969609392773351302756556372614743030521565358366130,
    lc0⟩)) (.sx (.leaf ⟨555, 16, 934, 519, 16, 1977, ⟨[[(443590834143232, 0), (0, 3340191504900560), (86257094274,
    0), (1676941, 0), (340, 0)], [(11872051220066229, 0), (0, 3014317387562), (44996786, 0), (0, 4581)],
    [(16851483701780, 0), (0, 1636699255), (0, 45009), (0, 11)], [(17019108540, 0), (0, 210351), (79, 0)]], 3, 4⟩,
    ⟨[[(8148894891147264, 0), (0, 2763802106283123), (23281693319, 0), (0, 2553166), (0, 305)], [(0,
    19902610144299063), (185010205765, 0), (61309533, 0), (8709, 0), (1, 0)], [(4817960552090, 0), (0, 455764934),
    (0, 80896), (0, 10)], [(0, 547906699), (0, 107097), (0, 12)]], 3, 4⟩, 72057594037927936, 1787137494467,
    551556609438, ⟨[[(15654257711221, 0), (2205067760, 0), (0, 3047819), (2813, 0), (14, 0)], [(3689402651, 0),
    (12335081, 0), (7704, 0), (0, 42)], [(0, 8579255), (0, 33154), (20, 0)], [(23969, 0), (87, 0)]], 3, 4⟩,
    17592186044416, 13103776,
    5272076614276623826417390501000394434133248336103544118015276240423628344492795411761866694144389828889430667706888194390272320,
    lc0⟩) (.leaf ⟨530, 16, 881, 513, 16, 1996, ⟨[[(32092813944635392, 0), (0, 3272805846886036), (83075893956, 0),
    (1382673, 0), (312, 0)], [(12620982450639957, 0), (0, 2973886828458), (39291875, 0), (0, 5139)],
    [(18005987277540, 0), (0, 1564811191), (0, 32370), (0, 9)], [(17457749518, 0), (0, 136386), (85, 0)]], 3, 4⟩,
    ⟨[[(0, 35409758955552768), (0, 2783336803003190), (25960539573, 0), (0, 2227232), (0, 267)], [(0,
    19687470460570740), (147704264583, 0), (55004546, 0), (7891, 0), (1, 0)], [(4821013941533, 0), (0, 468797380),
    (0, 82111), (0, 11)], [(0, 136526286), (0, 30602), (5, 0)]], 3, 4⟩, 72057594037927936, 1740785599568,
    531400267716, ⟨[[(15653993975044, 0), (2332040762, 0), (0, 3010653), (2006, 0), (9, 0)], [(3653476187, 0),
    (12292008, 0), (9385, 0), (0, 32)], [(0, 8725623), (0, 35139), (2, 0)], [(24956, 0), (104, 0)]], 3, 4⟩,
    17592186044416, 14220798,
    5084513498209530850737604585207584332637975603640280198707680424130058171167446257209014825925807822072162253693486920456424365,
    lc0⟩))) (.sx (.sx (.sy (.leaf ⟨1031, 16, 1828, 752, 16, 2816, ⟨[[(0, 17410475817680896), (0, 2970635983065093),
    (41423354659, 0), (620872, 0), (49, 0)], [(16352229700074798, 0), (0, 2647313783253), (25067643, 0), (0, 597)],
    [(24122028839920, 0), (0, 1581770340), (0, 37869), (0, 4)], [(27520426643, 0), (0, 323721), (26, 0)]], 3, 4⟩,
    ⟨[[(34591807332016128, 0), (0, 1973302136148745), (4783502321, 0), (0, 710365), (0, 40)], [(0,
    29372703882890929), (227035159214, 0), (31004457, 0), (2163, 0)], [(6980593706645, 0), (0, 332144777), (0,
    29832), (0, 2)], [(0, 2187033336), (0, 229264), (0, 21)]], 3, 4⟩, 72057594037927936, 3215046381741, 844870024778,
    ⟨[[(15558821755086, 0), (1243822608, 0), (0, 1533992), (1770, 0), (6, 0)], [(2232181112, 0), (5202401, 0), (860,
    0), (0, 13)], [(0, 2986626), (0, 7260), (11, 0)], [(4940, 0), (7, 0)]], 3, 4⟩, 17592186044416, 1235754,
    5559373405323967750625048566926656941921693412448339239411260839578083760903025573445275981082355371973534053205489687467488103,
    lc0⟩) (.leaf ⟨1047, 16, 1894, 741, 16, 2825, ⟨[[(0, 22868726220029952), (0, 3034287772474605), (43966520464, 0),
    (749522, 0), (55, 0)], [(15572161513811886, 0), (0, 2717282760070), (25051994, 0), (0, 603)], [(24159843740225,
    0), (0, 1681322606), (0, 45408), (0, 4)], [(28352729998, 0), (0, 306936), (29, 0)]], 3, 4⟩, ⟨[[(7872700122398720,
    0), (0, 1975350363137516), (3663176545, 0), (0, 796638), (0, 44)], [(0, 29344123668862171), (260688403120, 0),
    (34549202, 0), (2409, 0)], [(6827863339559, 0), (0, 364631935), (0, 32711), (0, 2)], [(0, 2315139976), (0,
    253014), (0, 24)]], 3, 4⟩, 72057594037927936, 3398948893207, 898651257485, ⟨[[(15496364999733, 0), (1172761470,
    0), (0, 1612111), (1730, 0), (5, 0)], [(2207884809, 0), (5284239, 0), (861, 0), (0, 13)], [(0, 2991063), (0,
    7505), (13, 0)], [(5144, 0), (8, 0)]], 3, 4⟩, 17592186044416, 1292292,
    5743446650546890257676711579634520717633186419351574455216895187201066306724036463207530480485424438109371230818382542319423042,
    lc0⟩)) (.sy (.leaf ⟨974, 16, 1710, 745, 16, 2853, ⟨[[(0, 20398408835022848), (0, 2885517963533250), (39673816779,
    0), (551212, 0), (46, 0)], [(17332899934949254, 0), (0, 2602159559415), (20621659, 0), (0, 847)],
    [(25971331370833, 0), (0, 1512118009), (0, 31701), (0, 3)], [(28342944076, 0), (0, 213569), (34, 0)]], 3, 4⟩,
    ⟨[[(13889199686123520, 0), (0, 1990178381626949), (6110874351, 0), (0, 630929), (0, 36)], [(0,
    29175057034600887), (200657263278, 0), (28772168, 0), (2032, 0)], [(6837038364889, 0), (0, 360970844), (0,
    32458), (0, 2)], [(0, 1522066370), (0, 156563), (0, 14)]], 3, 4⟩, 72057594037927936, 3122619029847, 831046604275,
    ⟨[[(15559282589344, 0), (1330769620, 0), (0, 1556303), (1264, 0), (4, 0)], [(2232929788, 0), (5287448, 0), (1706,
    0), (0, 11)], [(0, 3110240), (0, 8236), (8, 0)], [(5402, 0), (11, 0)]], 3, 4⟩, 17592186044416, 1383145,
    5407780668599900174710656412026102995561316671943306238908062812535054033907690833693032098144516130731036932779770870537213711,
    lc0⟩) (.leaf ⟨987, 16, 1770, 734, 16, 2862, ⟨[[(15805380907532288, 0), (0, 2945078276520590), (41998738089, 0),
    (669826, 0), (52, 0)], [(16594220951292492, 0), (0, 2672699288131), (20013756, 0), (0, 892)], [(26088175191925,
    0), (0, 1600795715), (0, 38234), (0, 4)], [(29235687132, 0), (0, 183731), (39, 0)]], 3, 4⟩, ⟨[[(0,
    24845492312227840), (0, 1990798937502074), (5121104684, 0), (0, 708149), (0, 39)], [(0, 29158505658260364),
    (231866419488, 0), (32103062, 0), (2267, 0)], [(6668364336851, 0), (0, 396350464), (0, 35691), (0, 2)], [(0,
    1609357175), (0, 171932), (0, 16)]], 3, 4⟩, 72057594037927936, 3287654175161, 883140231028, ⟨[[(15495744154097,
    0), (1258098474, 0), (0, 1632895), (1289, 0), (3, 0)], [(2214885416, 0), (5390779, 0), (1722, 0), (0, 11)], [(0,
    3128392), (0, 8593), (9, 0)], [(5669, 0), (12, 0)]], 3, 4⟩, 17592186044416, 1507357,
    5591980417082075191958424034848846362689828009054381850528850033995732860903927716351111563560135111564502627730601714100311785,
    lc0⟩))) (.sx (.leaf ⟨559, 16, 981, 503, 16, 1991, ⟨[[(0, 13396967769497600), (0, 3415792348278930), (93827204435,
    0), (2552800, 0), (433, 0)], [(10891423376551483, 0), (0, 3122286722728), (39722217, 0), (0, 5201)],
    [(16823027338776, 0), (0, 1776030085), (0, 66911), (0, 14)], [(17787160984, 0), (0, 127888), (103, 0)]], 3, 4⟩,
    ⟨[[(34268391756193792, 0), (0, 2761939858724248), (19081275293, 0), (0, 3245644), (0, 366)], [(0,
    19933281280979800), (255471428572, 0), (76557329, 0), (10962, 0), (1, 0)], [(4599749740566, 0), (0, 549173495),
    (0, 98638), (0, 12)], [(0, 609530570), (0, 123296), (0, 19)]], 3, 4⟩, 72057594037927936, 1936738206414,
    631825519519, ⟨[[(15526961440964, 0), (2020883681, 0), (0, 3357816), (2810, 0), (11, 0)], [(3666885095, 0),
    (12938711, 0), (8683, 0), (0, 46)], [(0, 8813499), (0, 37064), (26, 0)], [(26875, 0), (107, 0), (0, 1)]], 3, 4⟩,
    17592186044416, 15975913,
    5394803550407734062594950321240392832594576135281829244324515338783047025967728085778348084602362839779273742535064936114926886,
    lc0⟩) (.leaf ⟨533, 16, 925, 497, 16, 2010, ⟨[[(22065251040649216, 0), (0, 3347414861984370), (89940381726, 0),
    (2178048, 0), (398, 0)], [(11693559819892978, 0), (0, 3085216833338), (32694787, 0), (0, 5977)],
    [(18070670169109, 0), (0, 1684781322), (0, 49929), (0, 12)], [(18282025820, 0), (0, 42768), (111, 0)]], 3, 4⟩,
    ⟨[[(0, 24207962616180736), (0, 2778450050432497), (22332799398, 0), (0, 2834109), (0, 321)], [(0,
    19735865690774796), (210856008923, 0), (68861075, 0), (9999, 0), (1, 0)], [(4595559317182, 0), (0, 563858716),
    (0, 100616), (0, 13)], [(0, 151902383), (0, 27111), (2, 0)]], 3, 4⟩, 72057594037927936, 1874111041784,
    594808037655, ⟨[[(15526753366079, 0), (2151507478, 0), (0, 3313930), (2089, 0), (8, 0)], [(3634430334, 0),
    (12901740, 0), (10611, 0), (0, 38)], [(0, 8946507), (0, 39369), (5, 0)], [(27833, 0), (130, 0)]], 3, 4⟩,
    17592186044416, 17506510,
    4736291242500936739827435948638495849259712010697449259391382192407494036026648657231409237491807354800372858220412776498592565,
    lc0⟩)))) (.sy (.sx (.leaf ⟨382, 16, 621, 366, 16, 1476, ⟨[[(30402082165841920, 0), (0, 2443399241289085),
    (60228293765, 0), (723881, 0), (205, 0)], [(21296118485984119, 0), (0, 4472275924586), (51120341, 0), (0, 8591),
    (0, 1)], [(60649141494604, 0), (0, 4464203481), (0, 43693), (0, 17)], [(110755053160, 0), (0, 359577), (519,
    0)]], 3, 4⟩, ⟨[[(32947599393914880, 0), (0, 2052714571932378), (21520824637, 0), (0, 1311471), (0, 156)], [(0,
    28217442605360506), (131162502491, 0), (66276484, 0), (9631, 0), (1, 0)], [(14349935636540, 0), (0, 1375117819),
    (0, 233510), (0, 32)], [(2658846663, 0), (402629, 0), (164, 0)]], 3, 4⟩, 72057594037927936, 19877199964676,
    5493710981673, ⟨[[(15650772491676, 0), (3489044015, 0), (0, 5442281), (2993, 0), (18, 0)], [(4611961495, 0),
    (21366801, 0), (27197, 0), (0, 64)], [(0, 14760139), (0, 84783), (0, 71), (1, 0)], [(55758, 0), (376, 0), (0,
    1)]], 3, 4⟩, 17592186044416, 61431564,
    4671866381606233327046796258952912760993149207864698943592528408492540238911350892913149142228616658275981583398200707207056316,
    lc0⟩) (.leaf ⟨342, 16, 535, 359, 16, 1512, ⟨[[(0, 33401096790589440), (0, 2273645775501660), (53703881606, 0),
    (292740, 0), (153, 0)], [(23266589564713560, 0), (0, 4177048740040), (43230292, 0), (0, 8204), (0, 1)],
    [(65195500090291, 0), (0, 3865502822), (17638, 0), (0, 4)], [(110180275147, 0), (0, 37359), (414, 0)]], 3, 4⟩,
    ⟨[[(0, 6423804079538176), (0, 2099579950444198), (24490597187, 0), (0, 986443), (0, 113)], [(0,
    27648726781826737), (19330852432, 0), (48957934, 0), (7166, 0), (1, 0)], [(15316420612633, 0), (0, 1318411999),
    (0, 208729), (0, 31)], [(6964567700, 0), (971858, 0), (306, 0)]], 3, 4⟩, 72057594037927936, 17860240792935,
    4844979988309, ⟨[[(15656531827448, 0), (3855690500, 0), (0, 4897478), (1429, 0), (9, 0)], [(4543226279, 0),
    (20692735, 0), (29131, 0), (0, 27)], [(0, 15488140), (0, 88054), (0, 140), (1, 0)], [(60232, 0), (437, 0)]], 3,
    4⟩, 17592186044416, 87135968,
    2261188628795814095772469401914854242486001982593440260359977594535052631027019667480811661142347070212812599627232711750670070,
    lc0⟩)) (.sx (.leaf ⟨387, 16, 658, 354, 16, 1485, ⟨[[(28486426915377152, 0), (0, 2524212481682285), (65324018798,
    0), (1251086, 0), (266, 0)], [(20198582324261245, 0), (0, 4691543445855), (39541751, 0), (0, 10335), (0, 1)],
    [(61873986158328, 0), (0, 4791920521), (0, 78162), (0, 24)], [(117314156547, 0), (248459, 0), (707, 0)]], 3, 4⟩,
    ⟨[[(27184163053314048, 0), (0, 2044573518178727), (19411450242, 0), (0, 1666539), (0, 188)], [(0,
    28305145273696475), (206879939969, 0), (83226559, 0), (12355, 0), (1, 0)], [(13679429387672, 0), (0, 1645334410),
    (0, 288108), (0, 38)], [(2921043193, 0), (576979, 0), (177, 0)]], 3, 4⟩, 72057594037927936, 21342283249349,
    6077987687016, ⟨[[(15523918384642, 0), (3255065119, 0), (0, 6002845), (3165, 0), (19, 0)], [(4547040766, 0),
    (22213189, 0), (30913, 0), (0, 82)], [(0, 14767243), (0, 93110), (0, 85), (1, 0)], [(59487, 0), (453, 0), (0,
    1)]], 3, 4⟩, 17592186044416, 69350846,
    3919420835300443488628753140170714369866241164796513565695415894183509149210548825689527269743906850638642743292066585310385102,
    lc0⟩) (.leaf ⟨344, 16, 565, 346, 16, 1521, ⟨[[(11470394863222784, 0), (0, 2343877564866369), (57444231831, 0),
    (672227, 0), (201, 0)], [(22367162893471025, 0), (0, 4372339907943), (31549289, 0), (0, 10090), (0, 1)],
    [(66806073761096, 0), (0, 4067660946), (9537, 0), (0, 8)], [(116461426141, 0), (474695, 0), (590, 0)]], 3, 4⟩,
    ⟨[[(30079453855502336, 0), (0, 2088153050576767), (22958726415, 0), (0, 1243559), (0, 137)], [(0,
    27790150200765068), (74884335092, 0), (61747478, 0), (9448, 0), (1, 0)], [(14684802921917, 0), (0, 1561867454),
    (0, 260783), (0, 37)], [(7577937533, 0), (1308184, 0), (352, 0)]], 3, 4⟩, 72057594037927936, 18899493039664,
    5228678739260, ⟨[[(15524452520502, 0), (3636154190, 0), (0, 5421821), (1315, 0), (11, 0)], [(4495722881, 0),
    (21551651, 0), (33707, 0), (0, 35)], [(0, 15494364), (0, 96707), (0, 177), (1, 0)], [(63179, 0), (527, 0), (1,
    0)]], 3, 4⟩, 17592186044416, 95703710,
    3021246895794282090651696054848397032693593458241791264993407932565316259404206988140748079769979490462898503285341924869135730,
    lc0⟩)))
theorem c36 : checkR job con0 false ⟨7, 9, 7, 9, 13, 17⟩ 1 30400 t36 237 21 160 30745 251 32000 = true := by decide +kernel

def t37 : CTree :=
  .sy (.sx (.sx (.sy (.leaf ⟨1064, 16, 1964, 730, 16, 2834, ⟨[[(0, 28278214579830784), (0, 3100040328803289),
    (46851399003, 0), (897788, 0), (63, 0)], [(14739667665294184, 0), (0, 2792096181693), (25051582, 0), (0, 604)],
    [(24165102330106, 0), (0, 1794210435), (0, 54115), (0, 5)], [(29248739994, 0), (0, 286394), (33, 0)]], 3, 4⟩,
    ⟨[[(0, 23324637350150144), (0, 1978580717932150), (2403420959, 0), (0, 890498), (0, 47)], [(0,
    29297278884507843), (298207863232, 0), (38491487, 0), (2676, 0)], [(6657468997770, 0), (0, 400237668), (0,
    35839), (0, 2)], [(0, 2456348239), (0, 279899), (0, 28)]], 3, 4⟩, 72057594037927936, 3600292474591, 957316435102,
    ⟨[[(15434417042161, 0), (1099628144, 0), (0, 1688774), (1757, 0), (4, 0)], [(2184844843, 0), (5377661, 0), (781,
    0), (0, 14)], [(0, 3008100), (0, 7801), (15, 0)], [(5400, 0), (8, 0)]], 3, 4⟩, 17592186044416, 1373403,
    5789905948911870540976841971205181976184446016601666838153138906464498154159924268573066912059131599205250298378940038185880803,
    lc0⟩) (.leaf ⟨1083, 16, 2040, 718, 16, 2844, ⟨[[(0, 35685861083529216), (0, 3170403375691263), (50170326062, 0),
    (1069406, 0), (71, 0)], [(13860649972032866, 0), (0, 2874483596765), (25095308, 0), (0, 601)], [(24149838600915,
    0), (0, 1924032269), (0, 64216), (0, 6)], [(30240071410, 0), (0, 261831), (37, 0)]], 3, 4⟩,
    ⟨[[(30634210715213824, 0), (0, 1983840820947287), (992511212, 0), (0, 992571), (0, 51)], [(0, 29240345414663552),
    (340142235102, 0), (42882179, 0), (2969, 0)], [(6469997733526, 0), (0, 439389551), (0, 39257), (0, 2)], [(0,
    2613271096), (0, 310346), (0, 31)]], 3, 4⟩, 72057594037927936, 3832119093216, 1023694479290, ⟨[[(15371735332359,
    0), (1028156967, 0), (0, 1771004), (1847, 0), (3, 0)], [(2154699545, 0), (5478729, 0), (692, 0), (0, 16)], [(0,
    3024448), (0, 8200), (17, 0)], [(5688, 0), (9, 0)]], 3, 4⟩, 17592186044416, 1514201,
    5673436585241617191435883022301299358157117622013984721561630156107138001868953705893352422649042328734687607520194655356639372,
    lc0⟩)) (.sx (.leaf ⟨663, 16, 1229, 613, 16, 2446, ⟨[[(0, 8018052336828416), (0, 3961987484149401), (120822908569,
    0), (4698514, 0), (659, 0)], [(4888277462381373, 0), (0, 1811672666363), (26367121, 0), (0, 2274)],
    [(4158012095292, 0), (0, 576605355), (0, 33857), (0, 6)], [(2465461370, 0), (0, 26119), (14, 0)]], 3, 4⟩, ⟨[[(0,
    8461634156150784), (0, 3397041924173486), (10199519376, 0), (0, 5885893), (0, 618)], [(0, 12434527242947250),
    (251046722302, 0), (65801769, 0), (9221, 0), (1, 0)], [(1368915152951, 0), (0, 191144611), (0, 34393), (0, 4)],
    [(0, 208032186), (0, 47576), (0, 9)]], 3, 4⟩, 72057594037927936, 200204125199, 99312513340, ⟨[[(15402611158595,
    0), (1325688240, 0), (0, 2404705), (2404, 0), (5, 0)], [(3363744256, 0), (10009821, 0), (3179, 0), (0, 35)], [(0,
    7457402), (0, 25080), (43, 0)], [(22103, 0), (55, 0)]], 3, 4⟩, 17592186044416, 10495312,
    5657421134960707712047335849033941450877797787141163515706317192253478199916499278436953395684307151698675476758253402018706354,
    lc0⟩) (.leaf ⟨650, 16, 1200, 608, 16, 2457, ⟨[[(9425523487956992, 0), (0, 3943788394336591), (118995966795, 0),
    (4483888, 0), (642, 0)], [(5126915991904030, 0), (0, 1816333053010), (23045650, 0), (0, 2717)], [(4370853713061,
    0), (0, 565589256), (0, 31166), (0, 6)], [(2528813412, 0), (0, 15701), (16, 0)]], 3, 4⟩, ⟨[[(28244905685524480,
    0), (0, 3402069554053341), (12959892337, 0), (0, 5530692), (0, 582)], [(0, 12375971613474813), (235812830382, 0),
    (63149758, 0), (8910, 0), (1, 0)], [(1351425925198, 0), (0, 197370920), (0, 35596), (0, 4)], [(0, 166488023), (0,
    37442), (0, 7)]], 3, 4⟩, 72057594037927936, 201123966671, 100457088552, ⟨[[(15401078206925, 0), (1383796811, 0),
    (0, 2425621), (2125, 0), (5, 0)], [(3326279927, 0), (10009027, 0), (4223, 0), (0, 33)], [(0, 7435625), (0,
    26296), (34, 0)], [(22360, 0), (66, 0)]], 3, 4⟩, 17592186044416, 10955971,
    5465302463976538638127471754045746431877877232118714320200629101728139513373145377441533097130622810542241620646644784649954931,
    lc0⟩))) (.sx (.leaf ⟨564, 16, 1034, 487, 16, 2004, ⟨[[(19713618865913856, 0), (0, 3498767559593851),
    (103682932414, 0), (3696693, 0), (548, 0)], [(9837624808540638, 0), (0, 3253186459552), (33298475, 0), (0,
    5901)], [(16772377343720, 0), (0, 1955139549), (0, 95975), (0, 19)], [(18709569996, 0), (0, 15050), (131, 0)]],
    3, 4⟩, ⟨[[(32926691863146496, 0), (0, 2763354608093826), (13698839570, 0), (0, 4067291), (0, 430)], [(0,
    19913456507261635), (343474787180, 0), (95576915, 0), (13630, 0), (1, 0)], [(4325639456361, 0), (0, 662372466),
    (0, 119631), (0, 15)], [(0, 681213067), (0, 146976), (0, 27)]], 3, 4⟩, 72057594037927936, 2114039008903,
    729258762037, ⟨[[(15400162596153, 0), (1816948268, 0), (0, 3708883), (3285, 0), (10, 0)], [(3660271945, 0),
    (13752079, 0), (9564, 0), (0, 62)], [(0, 9239932), (0, 42812), (39, 0), (1, 0)], [(31531, 0), (139, 0), (0, 1)]],
    3, 4⟩, 17592186044416, 19464565,
    5265265770750014527348611253190885634496704148320152524155022539945823503009422410938034576503001633069272294297552751289902988,
    lc0⟩) (.leaf ⟨537, 16, 974, 481, 16, 2024, ⟨[[(24286294157336576, 0), (0, 3427697486599050), (98833969230, 0),
    (3218940, 0), (505, 0)], [(10690039530761233, 0), (0, 3219004741108), (24463509, 0), (0, 6947)],
    [(18122450005962, 0), (0, 1836951722), (0, 73511), (0, 15)], [(19259615984, 0), (85882, 0), (144, 0)]], 3, 4⟩,
    ⟨[[(0, 21225791514390528), (0, 2777551850472595), (17675185118, 0), (0, 3556195), (0, 377)], [(0,
    19747921440915840), (290142306847, 0), (86283877, 0), (12497, 0), (1, 0)], [(4315292709858, 0), (0, 679900189),
    (0, 122608), (0, 15)], [(0, 166400409), (0, 26856), (0, 1)]], 3, 4⟩, 72057594037927936, 2034252825488,
    686404411067, ⟨[[(15401237204737, 0), (1958914363, 0), (0, 3663977), (2456, 0), (9, 0)], [(3620137054, 0),
    (13678950, 0), (12137, 0), (0, 52)], [(0, 9305844), (0, 45439), (8, 0), (1, 0)], [(32285, 0), (169, 0), (0, 1)]],
    3, 4⟩, 17592186044416, 22375785,
    4307426585683212984204585915778577247746885122798486040719380918765063812540107728942313825774380982949609216959159145618038287,
    lc0⟩))) (.sx (.sy (.sx (.leaf ⟨1104, 16, 2123, 707, 16, 2853, ⟨[[(0, 18249864157741056), (0, 3246095147279577),
    (54003016498, 0), (1268421, 0), (81, 0)], [(12929390775184928, 0), (0, 2965679808612), (25198206, 0), (0, 593)],
    [(24109653501595, 0), (0, 2073922321), (0, 75955), (0, 6)], [(31343516984, 0), (0, 232674), (41, 0)]], 3, 4⟩,
    ⟨[[(0, 11827508046528512), (0, 1989898356010500), (0, 583316103), (0, 1102456), (0, 55)], [(0,
    29150359484571276), (386735996804, 0), (47731374, 0), (3286, 0)], [(6258981612508, 0), (0, 482093808), (0,
    42966), (0, 2)], [(0, 2785994092), (0, 344494), (0, 35)]], 3, 4⟩, 72057594037927936, 4091944892789,
    1097456405269, ⟨[[(15310175414874, 0), (947768604, 0), (0, 1850237), (2056, 0), (3, 0)], [(2133447191, 0),
    (5605218, 0), (490, 0), (0, 19)], [(0, 3067688), (0, 8657), (20, 0)], [(6047, 0), (10, 0)]], 3, 4⟩,
    17592186044416, 1679485,
    5653175766588528470252969699053344175300882661657863591747802347460183898384882613288752378348213785296782799267039350926564834,
    lc0⟩) (.leaf ⟨1036, 16, 1979, 699, 16, 2892, ⟨[[(35106834646417408, 0), (0, 3145450423172232), (51204889373, 0),
    (1148901, 0), (76, 0)], [(14100596716728149, 0), (0, 2927772261871), (17776357, 0), (0, 1038)], [(26360695107406,
    0), (0, 1950276239), (0, 64839), (0, 6)], [(32486239813, 0), (0, 55940), (56, 0)]], 3, 4⟩, ⟨[[(30824758264045568,
    0), (0, 2001520694079365), (1361599377, 0), (0, 982258), (0, 49)], [(0, 29029253236732197), (349332198282, 0),
    (44558852, 0), (3107, 0)], [(6045353919089, 0), (0, 525311671), (0, 47270), (0, 3)], [(0, 1929581444), (0,
    232933), (0, 24)]], 3, 4⟩, 72057594037927936, 3915808619947, 1077848066495, ⟨[[(15307963344148, 0), (1040481487,
    0), (0, 1889149), (1663, 0), (3, 0)], [(2139047816, 0), (5753368, 0), (1749, 0), (0, 18)], [(0, 3206554), (0,
    10181), (15, 0)], [(6719, 0), (17, 0)]], 3, 4⟩, 17592186044416, 1984746,
    5559992409281653763377570492959756318317588593428907243437889661681884467924493874759989449205284840672466801502394401718081670,
    lc0⟩)) (.leaf ⟨851, 16, 1666, 445, 16, 1854, ⟨[[(20755517551837184, 0), (0, 2553213287032954), (44347640281, 0),
    (1116904, 0), (69, 0)], [(19551053532523962, 0), (0, 4757936537144), (32623310, 0), (0, 1324)], [(78702121307537,
    0), (0, 6792557068), (0, 259986), (0, 21)], [(207328525365, 0), (0, 572670), (344, 0)]], 3, 4⟩, ⟨[[(0,
    9900696161931264), (0, 1288247295679219), (0, 804721830), (0, 742174), (0, 36)], [(0, 37294753988633393),
    (538858854350, 0), (66167308, 0), (4552, 0)], [(15164300955608, 0), (0, 1427518201), (0, 127681), (0, 7)], [(0,
    12959507894), (0, 1650862), (0, 170)]], 3, 4⟩, 72057594037927936, 53657003604631, 11913290454387,
    ⟨[[(15247732226695, 0), (1416504090, 0), (0, 4752341), (8071, 0), (17, 0)], [(2712426996, 0), (11652878, 0),
    (3184, 0), (0, 107)], [(0, 5258652), (0, 25854), (81, 0), (1, 0)], [(14408, 0), (51, 0), (0, 1)]], 3, 4⟩,
    17592186044416, 5796018,
    5729488406010932789985739942310656501998439500355460617393799434005975610788446463250028506400957173413065411916872303865041905,
    lc0⟩)) (.sx (.leaf ⟨572, 16, 1094, 471, 16, 2016, ⟨[[(0, 27476023032143872), (0, 3588388750191635),
    (116520916387, 0), (5185542, 0), (692, 0)], [(8688683768772829, 0), (0, 3411423829502), (25479823, 0), (0,
    6711)], [(16678987432891, 0), (0, 2186456126), (0, 134292), (0, 24)], [(19824348222, 0), (136468, 0), (166, 0)]],
    3, 4⟩, ⟨[[(3593724693078016, 0), (0, 2769385731690079), (6933308879, 0), (0, 5023348), (0, 496)], [(0,
    19833184981039717), (453173304509, 0), (119045012, 0), (16774, 0), (2, 0)], [(3984764781892, 0), (0, 798967667),
    (0, 144531), (0, 17)], [(0, 767128741), (0, 179824), (0, 37)]], 3, 4⟩, 72057594037927936, 2333003053303,
    823013639614, ⟨[[(15280065330777, 0), (1612438792, 0), (0, 4116255), (4186, 0), (13, 0)], [(3642399180, 0),
    (14715250, 0), (10937, 0), (0, 90)], [(0, 9772426), (0, 50599), (51, 0), (1, 0)], [(37564, 0), (186, 0), (0,
    1)]], 3, 4⟩, 17592186044416, 23676892,
    5120732871241531704415616715642162193361400271760498619916734064716423555919379077751480915971175068205159531319967338009081342,
    lc0⟩) (.leaf ⟨543, 16, 1029, 464, 16, 2037, ⟨[[(0, 12746824621465600), (0, 3513567161174386), (110393682334, 0),
    (4574126, 0), (638, 0)], [(9592058355566429, 0), (0, 3380561820073), (14232760, 0), (0, 8095)], [(18149829294461,
    0), (0, 2031841789), (0, 104839), (0, 20)], [(20433631465, 0), (259056, 0), (184, 0)]], 3, 4⟩,
    ⟨[[(26952209528664064, 0), (0, 2780436602868748), (11797726562, 0), (0, 4395378), (0, 434)], [(0,
    19704613012977960), (389392646649, 0), (107877021, 0), (15437, 0), (2, 0)], [(3966372022553, 0), (0, 820518714),
    (0, 148736), (0, 18)], [(0, 181766896), (0, 30692), (0, 6)]], 3, 4⟩, 72057594037927936, 2223946661291,
    788631655637, ⟨[[(15278630027770, 0), (1767711846, 0), (0, 4092829), (3034, 0), (13, 0)], [(3589596832, 0),
    (14619001, 0), (14648, 0), (0, 73)], [(0, 9763509), (0, 53913), (4, 0), (1, 0)], [(38308, 0), (228, 0), (0, 1)]],
    3, 4⟩, 17592186044416, 27714637,
    4362109693388827629135108853990992855223661360774855935808673715075980284939242590254321259492887241062245106855169325275036707,
    lc0⟩)))
theorem c37 : checkR job con0 false ⟨7, 9, 7, 9, 13, 17⟩ 1 30400 t37 453 21 320 31247 251 32000 = true := by decide +kernel

def t38 : CTree :=
  .sy (.sx (.sy (.leaf ⟨883, 16, 1765, 438, 16, 1863, ⟨[[(14188631165009920, 0), (0, 2656831400645666), (48879314269,
    0), (1337331, 0), (80, 0)], [(18190966949683002, 0), (0, 5007025597350), (32467296, 0), (0, 1378)],
    [(79694078183094, 0), (0, 7490305794), (0, 310968), (0, 25)], [(219438380098, 0), (0, 226862), (392, 0)]], 3, 4⟩,
    ⟨[[(0, 27115674902528), (0, 1295895185919073), (0, 1987595346), (0, 820710), (0, 39)], [(0, 37186628075606357),
    (611800087076, 0), (73716841, 0), (5032, 0)], [(14484522045359, 0), (0, 1569081395), (0, 140060), (0, 8)], [(0,
    13899804218), (0, 1840079), (0, 191)]], 3, 4⟩, 72057594037927936, 58500227703480, 12837021094073,
    ⟨[[(15187110335310, 0), (1287404819, 0), (0, 5000402), (9371, 0), (21, 0)], [(2639400399, 0), (11816365, 0),
    (3156, 0), (0, 128)], [(0, 5200622), (0, 27126), (87, 0), (1, 0)], [(14691, 0), (57, 0), (0, 1)]], 3, 4⟩,
    17592186044416, 5684792,
    5149447590619251907650349801971417406246310638063974384934764929240236268834725188952446353600685236394497743805438193695492419,
    lc0⟩) (.leaf ⟨920, 16, 1878, 431, 16, 1874, ⟨[[(16700411845312512, 0), (0, 2773592307896814), (54284109730, 0),
    (1601344, 0), (93, 0)], [(16689672770489999, 0), (0, 5294005266660), (32361217, 0), (0, 1435)], [(80708661502010,
    0), (0, 8322491086), (0, 372193), (0, 29)], [(233474003115, 0), (193184, 0), (449, 0)]], 3, 4⟩,
    ⟨[[(35736496685789184, 0), (0, 1306198101639504), (0, 3302389491), (0, 905738), (0, 41)], [(0,
    37077915527371368), (693810545932, 0), (82144390, 0), (5559, 0)], [(13741152440983, 0), (0, 1726171319), (0,
    153770), (0, 9)], [(0, 14961239645), (0, 2054637), (0, 214)]], 3, 4⟩, 72057594037927936, 64213072636322,
    13873166358782, ⟨[[(15126232934643, 0), (1153148420, 0), (0, 5292599), (10864, 0), (30, 0)], [(2559919239, 0),
    (11998631, 0), (3577, 0), (0, 150)], [(0, 5132949), (0, 28616), (88, 0), (1, 0)], [(14866, 0), (64, 0), (0, 1)]],
    3, 4⟩, 17592186044416, 5900304,
    4734255908831669221103533540579510119595469506294178384832231252791057111473965364015081794107521517046146192882067035162736837,
    lc0⟩)) (.sy (.leaf ⟨738, 16, 1453, 429, 16, 1918, ⟨[[(0, 28487350749306880), (0, 2371152213209972), (40938406716,
    0), (1018953, 0), (65, 0)], [(21514435727915255, 0), (0, 4636947677873), (7364886, 0), (0, 2727)],
    [(90951474531499, 0), (0, 6052324435), (0, 200240), (0, 17)], [(221827295715, 0), (1890862, 0), (550, 0)]], 3,
    4⟩, ⟨[[(0, 2254553792270336), (0, 1310661192768997), (875080352, 0), (0, 643073), (0, 30)], [(0,
    37088757296322926), (486747438579, 0), (63002500, 0), (4415, 0)], [(13776035834854, 0), (0, 1761959119), (0,
    159689), (0, 10)], [(0, 3890554536), (0, 462368), (0, 52)]], 3, 4⟩, 72057594037927936, 49067352480087,
    12063944696363, ⟨[[(15188725374931, 0), (1614508125, 0), (0, 5076152), (5269, 0), (24, 0)], [(2761544125, 0),
    (12696311, 0), (13058, 0), (0, 99)], [(0, 6055891), (0, 37869), (17, 0), (1, 0)], [(19829, 0), (126, 0), (0,
    1)]], 3, 4⟩, 17592186044416, 10594731,
    4993600377211620230656506618668843984003086031821897576824718232736914596032307115874791883863300539090948917672935688082868392,
    lc0⟩) (.leaf ⟨762, 16, 1536, 422, 16, 1927, ⟨[[(30962550498328576, 0), (0, 2462300186572980), (45005736642, 0),
    (1220744, 0), (75, 0)], [(20284286059523365, 0), (0, 4896220657269), (3344887, 0), (0, 3016)], [(92879381393614,
    0), (0, 6624825737), (0, 240506), (0, 20)], [(235653177427, 0), (2609087, 0), (634, 0)]], 3, 4⟩, ⟨[[(0,
    13708958409838592), (0, 1316432572364382), (0, 140355921), (0, 708454), (0, 32)], [(0, 37000772131386240),
    (556045714476, 0), (70307578, 0), (4879, 0)], [(12910340534534, 0), (0, 1938848327), (0, 175680), (0, 11)], [(0,
    4155927209), (0, 521491), (0, 61)]], 3, 4⟩, 72057594037927936, 53030243494331, 13003457661117,
    ⟨[[(15126547399898, 0), (1474303560, 0), (0, 5422406), (6069, 0), (32, 0)], [(2708523380, 0), (13059303, 0),
    (14482, 0), (0, 115)], [(0, 6105535), (0, 40649), (14, 0), (1, 0)], [(20864, 0), (140, 0), (0, 1)]], 3, 4⟩,
    17592186044416, 11203951,
    4634768107487071483717659115371298045493974080389504447637027265986471251808286407260139041298979702189960649266270449688313474,
    lc0⟩))) (.sx (.leaf ⟨577, 16, 1216, 324, 16, 1451, ⟨[[(26198241716076544, 0), (0, 3482180149851804),
    (150815565861, 0), (9833988, 0), (1087, 0)], [(8236832321007212, 0), (0, 6795717973029), (75574974, 0), (0,
    7153)], [(48056046487793, 0), (0, 11569456276), (0, 1143193), (0, 169)], [(151438671147, 0), (1173178, 0), (1292,
    0)]], 3, 4⟩, ⟨[[(0, 35641103216984064), (0, 2032923743187204), (0, 17010872547), (0, 6411467), (0, 554)], [(0,
    28266193323116830), (1281323270558, 0), (296127361, 0), (39530, 0), (4, 0)], [(9562522144121, 0), (0,
    3056256290), (0, 542938), (0, 63)], [(0, 12881423833), (0, 3723835), (0, 779)]], 3, 4⟩, 72057594037927936,
    44911320283031, 12587584565462, ⟨[[(15036970668478, 0), (1190296928, 0), (0, 9801105), (30477, 0), (137, 0)],
    [(4208488929, 0), (27539409, 0), (11744, 0), (0, 713), (0, 2)], [(0, 14860170), (0, 117283), (453, 0), (9, 0)],
    [(75064, 0), (469, 0), (0, 6)]], 3, 4⟩, 17592186044416, 55465897,
    4707697302358847036466463246204192676568572710133749849282653818081643438295852646406594195270142684527723514274117111977300876,
    lc0⟩) (.sy (.leaf ⟨791, 16, 1630, 415, 16, 1938, ⟨[[(3920251467710464, 0), (0, 2564016525378049), (49833991788,
    0), (1461163, 0), (86, 0)], [(18917805724124830, 0), (0, 5194752652397), (0, 1383526), (0, 3353)],
    [(94967149688571, 0), (0, 7303073673), (0, 288756), (0, 23)], [(251639115556, 0), (3474097, 0), (733, 0)]], 3,
    4⟩, ⟨[[(0, 551938576404480), (0, 1324644066524678), (0, 1263546066), (0, 778616), (0, 34)], [(0,
    36912802859290173), (634039590577, 0), (78454910, 0), (5386, 0)], [(11959281105839, 0), (0, 2135574624), (0,
    193397), (0, 12)], [(0, 4459273962), (0, 591220), (0, 71)]], 3, 4⟩, 72057594037927936, 57763290026861,
    14059126656542, ⟨[[(15067601611303, 0), (1345624090, 0), (0, 5802420), (6684, 0), (41, 0)], [(2634434907, 0),
    (13343878, 0), (16471, 0), (0, 128), (0, 1)], [(0, 6074055), (0, 43126), (6, 0), (1, 0)], [(21371, 0), (152,
    0)]], 3, 4⟩, 17592186044416, 11356715,
    4829139805119781662028785788398475981469987150536346979624836932189057761882059221319510858665428802106254828046349008397507288,
    lc0⟩) (.leaf ⟨825, 16, 1738, 408, 16, 1949, ⟨[[(0, 28078436118773760), (0, 2679328639312966), (55624730586, 0),
    (1749903, 0), (100, 0)], [(17389875720072113, 0), (0, 5543171792873), (0, 6989033), (0, 3750)], [(97269594956268,
    0), (0, 8115434629), (0, 347034), (0, 27)], [(270374179261, 0), (4522432, 0), (849, 0)]], 3, 4⟩,
    ⟨[[(4414144206069760, 0), (0, 1334047857120724), (0, 2502123815), (0, 852838), (0, 36)], [(0, 36781639268334098),
    (721078030859, 0), (87444678, 0), (5937, 0)], [(10898497773879, 0), (0, 2352039988), (0, 212832), (0, 13)], [(0,
    4802071823), (0, 672129), (0, 83)]], 3, 4⟩, 72057594037927936, 63366841550349, 15228583279824,
    ⟨[[(15009406490438, 0), (1210095086, 0), (0, 6244071), (7243, 0), (52, 0)], [(2557818467, 0), (13654325, 0),
    (18904, 0), (0, 140), (0, 1)], [(0, 6034495), (0, 45625), (0, 6), (1, 0)], [(21651, 0), (163, 0)]], 3, 4⟩,
    17592186044416, 10900146,
    5045551865288742769815269769982641021508249162880518904801095122087959822237142094917060946491196275673912816248198000190398516,
    lc0⟩)))
theorem c38 : checkR job con0 false ⟨7, 9, 7, 9, 13, 17⟩ 1 30400 t38 453 21 320 31749 251 32000 = true := by decide +kernel

def t39 : CTree :=
  .sy (.sy (.sx (.leaf ⟨394, 16, 700, 342, 16, 1495, ⟨[[(0, 24459680688730112), (0, 2614404015504875), (71955466563,
    0), (1958493, 0), (343, 0)], [(18991535475399430, 0), (0, 4957434481384), (24445405, 0), (0, 12429), (0, 1)],
    [(63239874383656, 0), (0, 5202460819), (0, 127157), (0, 33)], [(125139690798, 0), (1111287, 0), (939, 0)]], 3,
    4⟩, ⟨[[(35244485261275136, 0), (0, 2040089780969797), (16712619652, 0), (0, 2090489), (0, 221)], [(0,
    28368416190997327), (302560594123, 0), (104825842, 0), (15583, 0), (2, 0)], [(12861843092736, 0), (0,
    1978479089), (0, 353282), (0, 46)], [(3278431607, 0), (766902, 0), (192, 0)]], 3, 4⟩, 72057594037927936,
    23037526308000, 6775738538513, ⟨[[(15401692907394, 0), (3026564699, 0), (0, 6631155), (3490, 0), (25, 0)],
    [(4449897203, 0), (23071420, 0), (35843, 0), (0, 109), (0, 1)], [(0, 14717534), (0, 103418), (0, 114), (2, 0)],
    [(64356, 0), (559, 0), (0, 1)]], 3, 4⟩, 17592186044416, 80025111,
    3264972040982130552686980526053198713587544508027186794550646935352715122569099841614562835202745727730331679410462361778132701,
    lc0⟩) (.leaf ⟨347, 16, 598, 334, 16, 1530, ⟨[[(13827242654511104, 0), (0, 2419082514649679), (62216367230, 0),
    (1186387, 0), (261, 0)], [(21357463363076489, 0), (0, 4602671661938), (16078653, 0), (0, 12343), (0, 1)],
    [(68548145824582, 0), (0, 4302476049), (0, 5665), (0, 13)], [(123688086612, 0), (1219331, 0), (807, 0)]], 3, 4⟩,
    ⟨[[(0, 6328110680174592), (0, 2078340378035214), (20990742216, 0), (0, 1550686), (0, 161)], [(0,
    27899840301458280), (145510634906, 0), (78353403, 0), (12130, 0), (1, 0)], [(13912024614849, 0), (0, 1863987903),
    (0, 322802), (0, 44)], [(8376612954, 0), (1695948, 0), (405, 0)]], 3, 4⟩, 72057594037927936, 19992553740721,
    5712519679986, ⟨[[(15400810683172, 0), (3409329025, 0), (0, 6013819), (1186, 0), (16, 0)], [(4448915084, 0),
    (22540222, 0), (39622, 0), (0, 45)], [(0, 15564239), (0, 108066), (0, 233), (1, 0)], [(68173, 0), (655, 0), (1,
    0)]], 3, 4⟩, 17592186044416, 109187647,
    4115806950503532863620852534196887752075634398245744914979337400880317210102426418959136752968537934639300801356251211949441375,
    lc0⟩)) (.sx (.leaf ⟨402, 16, 749, 331, 16, 1505, ⟨[[(106557961596928, 0), (0, 2718332934468453), (80739373105,
    0), (2905131, 0), (441, 0)], [(17662963536184024, 0), (0, 5288666463624), (4865204, 0), (0, 15010), (0, 1)],
    [(64833211416689, 0), (0, 5731971554), (0, 195507), (0, 44)], [(134768256087, 0), (2310456, 0), (1234, 0)]], 3,
    4⟩, ⟨[[(0, 34061805381394432), (0, 2038551831776271), (13302568070, 0), (0, 2582921), (0, 254)], [(0,
    28376580846558982), (423288540891, 0), (131861369, 0), (19378, 0), (2, 0)], [(11852347564388, 0), (0,
    2385545540), (0, 431016), (0, 54)], [(3737939247, 0), (973881, 0), (209, 0)]], 3, 4⟩, 72057594037927936,
    25068039336508, 7633992697042, ⟨[[(15279735797188, 0), (2743768630, 0), (0, 7430805), (4220, 0), (39, 0)],
    [(4400277808, 0), (24484371, 0), (42873, 0), (0, 153), (0, 1)], [(0, 15149058), (0, 120253), (0, 157), (3, 0)],
    [(74558, 0), (725, 0), (0, 1)]], 3, 4⟩, 17592186044416, 97228601,
    3727261101694657980541722559276158016370393584076220744245520956096592403253563674659504774838996807201680508069635372699555131,
    lc0⟩) (.sx (.leaf ⟨464, 16, 847, 443, 16, 2095, ⟨[[(29477065702367232, 0), (0, 3268738611614568), (91301688112,
    0), (2707147, 0), (461, 0)], [(12532190454974072, 0), (0, 3190352797205), (0, 2092805), (0, 9768), (0, 1)],
    [(22141518123884, 0), (0, 1553076033), (0, 21395), (0, 8)], [(21295481414, 0), (375732, 0), (181, 0)]], 3, 4⟩,
    ⟨[[(4686591711817728, 0), (0, 2822399646925764), (23715544665, 0), (0, 2820225), (0, 273)], [(0,
    19220013073477598), (192692681652, 0), (73454486, 0), (11141, 0), (1, 0)], [(4318360951481, 0), (0, 782735985),
    (0, 139771), (0, 18)], [(1380075958, 0), (324424, 0), (70, 0)]], 3, 4⟩, 72057594037927936, 1827187707923,
    592157476788, ⟨[[(15276650389136, 0), (2242411110, 0), (0, 3702819), (578, 0), (8, 0)], [(3431831460, 0),
    (13691888, 0), (19906, 0), (0, 23)], [(0, 9525198), (0, 55423), (0, 96)], [(36530, 0), (290, 0)]], 3, 4⟩,
    17592186044416, 35085709,
    2737069051106553924127761506197921374057168644300436197165740443906120486275616658243437654055535526816807779064464417852219983,
    lc0⟩) (.leaf ⟨442, 16, 792, 436, 16, 2113, ⟨[[(0, 28059897624997888), (0, 3184312327347902), (85268035676, 0),
    (2136630, 0), (404, 0)], [(13565381723086371, 0), (0, 3103309194485), (0, 2745646), (0, 9620), (0, 1)],
    [(23301223173019, 0), (0, 1407898921), (1127, 0), (0, 4)], [(21317806287, 0), (347818, 0), (165, 0)]], 3, 4⟩,
    ⟨[[(0, 22985913228455936), (0, 2839853589562816), (26787829492, 0), (0, 2404318), (0, 228)], [(0,
    19011149623037891), (129908915271, 0), (62652035, 0), (9735, 0), (1, 0)], [(4558234218080, 0), (0, 743220684),
    (0, 130890), (0, 17)], [(1817913749, 0), (402852, 0), (88, 0)]], 3, 4⟩, 72057594037927936, 1705325359128,
    517090825132, ⟨[[(15280126696888, 0), (2412614792, 0), (0, 3485413), (134, 0), (6, 0)], [(3357075405, 0),
    (13140468, 0), (19681, 0), (0, 10)], [(0, 9315401), (0, 52799), (0, 109)], [(34209, 0), (280, 0), (1, 0)]], 3,
    4⟩, 17592186044416, 35130074,
    4021833419641964830658126635789654113569628729741639062932541487833425227226819361074712444130736572267642075526233642324915686,
    lc0⟩)))) (.sy (.sx (.sx (.leaf ⟨520, 16, 1022, 441, 16, 2071, ⟨[[(15879795011518464, 0), (0, 3520235944998930),
    (117334500934, 0), (5518532, 0), (730, 0)], [(9382124772382097, 0), (0, 3526630832642), (0, 8889141), (0, 10751),
    (0, 1)], [(19680455774741, 0), (0, 2072570308), (0, 107604), (0, 20)], [(22320070901, 0), (581482, 0), (245,
    0)]], 3, 4⟩, ⟨[[(633628246618112, 0), (0, 2798391512973671), (9953130964, 0), (0, 4646702), (0, 422)], [(0,
    19504810061162414), (434712448274, 0), (120532940, 0), (17214, 0), (2, 0)], [(3588581429334, 0), (0, 995104252),
    (0, 181007), (0, 22)], [(437199803, 0), (129004, 0), (23, 0)]], 3, 4⟩, 72057594037927936, 2279973939038,
    825191900616, ⟨[[(15156546042295, 0), (1708512476, 0), (0, 4557341), (2437, 0), (19, 0)], [(3544349894, 0),
    (15733062, 0), (22172, 0), (0, 76)], [(0, 10534266), (0, 69052), (0, 65), (1, 0)], [(48064, 0), (363, 0)]], 3,
    4⟩, 17592186044416, 40977260,
    4486213223152671501617139913765460169055225323915671356856563339482706332181676971179066019610194449049549158541844304016385384,
    lc0⟩) (.leaf ⟨492, 16, 956, 434, 16, 2091, ⟨[[(15340456945209344, 0), (0, 3434832827579953), (109247688229, 0),
    (4708248, 0), (655, 0)], [(10436160526635217, 0), (0, 3458707094964), (0, 15523356), (0, 11506), (0, 1)],
    [(21148658276330, 0), (0, 1865013552), (0, 70639), (0, 15)], [(22598002816, 0), (619208, 0), (245, 0)]], 3, 4⟩,
    ⟨[[(0, 8755195758768128), (0, 2808741612676439), (14840466231, 0), (0, 4001289), (0, 359)], [(0,
    19385417884224411), (355474759195, 0), (106525375, 0), (15495, 0), (2, 0)], [(3716601939470, 0), (0, 978755337),
    (0, 177824), (0, 22)], [(1030663247, 0), (277670, 0), (54, 0)]], 3, 4⟩, 72057594037927936, 2098490247501,
    765994907268, ⟨[[(15156703245705, 0), (1881236809, 0), (0, 4397354), (1251, 0), (16, 0)], [(3484663026, 0),
    (15297681, 0), (24365, 0), (0, 50)], [(0, 10328288), (0, 69097), (0, 111), (1, 0)], [(46976, 0), (390, 0)]], 3,
    4⟩, 17592186044416, 44576781,
    3678907560295659166538809756983831709833299492948150119430078772150154741724168962523947183433842015047418753175955112012789434,
    lc0⟩)) (.sx (.leaf ⟨466, 16, 893, 427, 16, 2110, ⟨[[(0, 2592163720523776), (0, 3347200965142319), (101340031725,
    0), (3923485, 0), (581, 0)], [(11522364446246717, 0), (0, 3373983889334), (0, 18816476), (0, 11794), (0, 1)],
    [(22515225750861, 0), (0, 1666862322), (0, 36665), (0, 11)], [(22702575779, 0), (609360, 0), (235, 0)]], 3, 4⟩,
    ⟨[[(0, 35150379968446464), (0, 2820916846124965), (19178070111, 0), (0, 3420212), (0, 302)], [(0,
    19240061897425003), (277453354249, 0), (92758447, 0), (13776, 0), (1, 0)], [(3915641009123, 0), (0, 944333561),
    (0, 170838), (0, 22)], [(1572652291, 0), (402825, 0), (81, 0)]], 3, 4⟩, 72057594037927936, 1928730705697,
    675212656917, ⟨[[(15158181352831, 0), (2056711794, 0), (0, 4180393), (382, 0), (12, 0)], [(3420956530, 0),
    (14738080, 0), (25149, 0), (0, 27)], [(0, 10060682), (0, 67118), (0, 142), (1, 0)], [(44695, 0), (398, 0), (1,
    0)]], 3, 4⟩, 17592186044416, 47625993,
    2311242962737460305146976257945943813408181382539901815059149842994635244111823437249905051849176975240433546750968003552772577,
    lc0⟩) (.leaf ⟨441, 16, 833, 419, 16, 2128, ⟨[[(32953321845334016, 0), (0, 3257191777607922), (93749744006, 0),
    (3182607, 0), (509, 0)], [(12627067066834475, 0), (0, 3274887387751), (0, 19269491), (0, 11673), (0, 1)],
    [(23763803826322, 0), (0, 1483374093), (0, 6767), (0, 6)], [(22652081510, 0), (560297, 0), (215, 0)]], 3, 4⟩,
    ⟨[[(0, 4392068130287616), (0, 2834877075148348), (22973311873, 0), (0, 2903939), (0, 250)], [(0,
    19063220331067761), (202150741991, 0), (79549183, 0), (12096, 0), (1, 0)], [(4179314414202, 0), (0, 894876508),
    (0, 160605), (0, 21)], [(2058036113, 0), (501874, 0), (103, 0)]], 3, 4⟩, 72057594037927936, 1772641506923,
    580407052214, ⟨[[(15155480677064, 0), (2227223236, 0), (0, 3948919), (0, 212), (9, 0)], [(3359239423, 0),
    (14176982, 0), (25083, 0), (0, 9)], [(0, 9829288), (0, 64380), (0, 163)], [(42154, 0), (394, 0), (1, 0)]], 3, 4⟩,
    17592186044416, 47990047,
    4114702435932177428860587310396625328833264605137642869406075413008994602912682275215596688763090287670200471770148628992060387,
    lc0⟩))) (.sx (.sy (.leaf ⟨646, 16, 1309, 404, 16, 1987, ⟨[[(15130634404536320, 0), (0, 2244397362705628),
    (39611516545, 0), (1030033, 0), (65, 0)], [(22736898023307386, 0), (0, 4646580245300), (0, 17143609), (0, 4065)],
    [(104185267776618, 0), (0, 5409787026), (0, 146422), (0, 14)], [(240945246123, 0), (4269452, 0), (751, 0)]], 3,
    4⟩, ⟨[[(0, 19882000423489536), (0, 1334710439782999), (1730735054, 0), (0, 587649), (0, 25)], [(0,
    36820333006801030), (465765455364, 0), (63679156, 0), (4505, 0)], [(12389569821986, 0), (0, 2166905070), (0,
    197530), (0, 12)], [(6287827980, 0), (903217, 0), (80, 0)]], 3, 4⟩, 72057594037927936, 45183288250573,
    12168374776170, ⟨[[(15067600888031, 0), (1713464889, 0), (0, 5533044), (2160, 0), (29, 0)], [(2780798579, 0),
    (13923136, 0), (25337, 0), (0, 69), (0, 1)], [(0, 7014908), (0, 54312), (0, 90), (1, 0)], [(28206, 0), (254,
    0)]], 3, 4⟩, 17592186044416, 18971714,
    5315711848734304901805198473039282835234824151769404963807120367267384575447608801964460560016719927395531774318113912886645069,
    lc0⟩) (.leaf ⟨666, 16, 1383, 396, 16, 1997, ⟨[[(26647659751555072, 0), (0, 2328400511242435), (43596534634, 0),
    (1232048, 0), (75, 0)], [(21552688921008094, 0), (0, 4930760904061), (0, 24789417), (0, 4575)],
    [(107164937866488, 0), (0, 5882249186), (0, 177617), (0, 16)], [(257036723074, 0), (5344069, 0), (868, 0)]], 3,
    4⟩, ⟨[[(29952688735358976, 0), (0, 1340140518061180), (811740690, 0), (0, 641716), (0, 26)], [(0,
    36753933670652050), (535896698603, 0), (71144797, 0), (4967, 0)], [(11307053263220, 0), (0, 2386640468), (0,
    217752), (0, 13)], [(6795643192, 0), (989937, 0), (84, 0)]], 3, 4⟩, 72057594037927936, 48492190224703,
    13114005279205, ⟨[[(15006904522012, 0), (1593150866, 0), (0, 5973000), (1959, 0), (36, 0)], [(2714578947, 0),
    (14347441, 0), (28945, 0), (0, 72), (0, 1)], [(0, 7071957), (0, 58670), (0, 113), (1, 0)], [(29720, 0), (281,
    0)]], 3, 4⟩, 17592186044416, 19520119,
    5473316380156864946149215142647983475215516317460591931670528844868944136945457795177239668328090649406308884636590914061180705,
    lc0⟩)) (.sx (.leaf ⟨469, 16, 945, 410, 16, 2124, ⟨[[(0, 14145931255652352), (0, 3430977044249965), (114478228552,
    0), (5496824, 0), (727, 0)], [(10394299903011154, 0), (0, 3600324758025), (0, 40051967), (0, 14312), (0, 1)],
    [(22929538520628, 0), (0, 1811995371), (0, 57661), (0, 14)], [(24415152893, 0), (920175, 0), (301, 0)]], 3, 4⟩,
    ⟨[[(0, 27339036077711360), (0, 2823011038455795), (13648791109, 0), (0, 4076193), (0, 325)], [(0,
    19202140922664238), (384243750571, 0), (116428432, 0), (16815, 0), (2, 0)], [(3418189632233, 0), (0, 1140809122),
    (0, 207980), (0, 26)], [(1808168670, 0), (493262, 0), (94, 0)]], 3, 4⟩, 72057594037927936, 2039506671625,
    764609272096, ⟨[[(15039319853084, 0), (1859413496, 0), (0, 4808164), (0, 120), (17, 0)], [(3414030041, 0),
    (16153366, 0), (33099, 0), (0, 27)], [(0, 10946173), (0, 84469), (0, 218), (1, 0)], [(57225, 0), (562, 0), (1,
    0)]], 3, 4⟩, 17592186044416, 63829230,
    5150975626948689390602292361113573202337701244236680880604358438860087955580947294300740030474230484481471616672516166326722827,
    lc0⟩) (.leaf ⟨442, 16, 879, 402, 16, 2143, ⟨[[(17515441664991232, 0), (0, 3334915596296402), (104844400402, 0),
    (4533543, 0), (636, 0)], [(11582842160824742, 0), (0, 3485920756831), (0, 40276080), (0, 14214), (0, 1)],
    [(24287636707816, 0), (0, 1577838348), (0, 18361), (0, 8)], [(24261078481, 0), (843943, 0), (278, 0)]], 3, 4⟩,
    ⟨[[(5680952718671872, 0), (0, 2833972464181739), (18341976269, 0), (0, 3445785), (0, 266)], [(0,
    19073590581998025), (293856390769, 0), (100391660, 0), (14809, 0), (1, 0)], [(3712848434588, 0), (0, 1080384898),
    (0, 196242), (0, 25)], [(2353727632, 0), (617625, 0), (120, 0)]], 3, 4⟩, 72057594037927936, 1850953208455,
    657434366219, ⟨[[(15036800276853, 0), (2044432716, 0), (0, 4509972), (0, 874), (12, 0)], [(3347256658, 0),
    (15405579, 0), (32636, 0), (0, 3)], [(0, 10550443), (0, 80239), (0, 243)], [(53733, 0), (557, 0), (2, 0)]], 3,
    4⟩, 17592186044416, 67691158,
    3793818251747663304349703375827191349972710764057061758391286460271472557438067583972796850204394837005467723510505842292345741,
    lc0⟩))))
theorem c39 : checkR job con0 false ⟨7, 9, 7, 9, 13, 17⟩ 1 30400 t39 495 21 320 15749 251 16000 = true := by decide +kernel

def t40 : CTree :=
  .sy (.sx (.sy (.leaf ⟨307, 16, 419, 378, 16, 1532, ⟨[[(0, 10340649306038272), (0, 2011275839353635), (44136578311,
    0), (0, 332298), (51, 0)], [(26571074633979675, 0), (0, 3615887547362), (52169147, 0), (0, 4090), (0, 1)],
    [(65769205935297, 0), (0, 3102993621), (26201, 0), (9, 0)], [(98507696308, 0), (0, 207464), (23, 0)]], 3, 4⟩,
    ⟨[[(0, 17289871740485632), (0, 2184110854534377), (28419240598, 0), (0, 517903), (0, 39)], [(0,
    26549705164058508), (0, 142956526681), (23697114, 0), (1965, 0), (1, 0)], [(17701563477307, 0), (0, 930255477),
    (0, 97637), (0, 19)], [(9866385711, 0), (574226, 0), (290, 0)]], 3, 4⟩, 72057594037927936, 14508976951093,
    4026215225447, ⟨[[(15916660722171, 0), (4548325128, 0), (0, 3601725), (1058, 0), (4, 0)], [(4528805273, 0),
    (18650226, 0), (22423, 0), (0, 8)], [(0, 16280818), (0, 78274), (0, 122)], [(63339, 0), (372, 0), (1, 0)]], 3,
    4⟩, 17592186044416, 125077765,
    2159373622204507073134386844027188441181669380374158222901343593285633400836961619213794665332179422110646110545590878877908293,
    lc0⟩) (.leaf ⟨307, 16, 439, 365, 16, 1541, ⟨[[(0, 1147909336993792), (0, 2061084780780684), (45810200074, 0), (0,
    219522), (76, 0)], [(25950762287404026, 0), (0, 3737124198573), (47368240, 0), (0, 5409), (0, 1)],
    [(67284565608903, 0), (0, 3216738083), (40607, 0), (8, 0)], [(103114737026, 0), (0, 144500), (123, 0)]], 3, 4⟩,
    ⟨[[(0, 16359297476382720), (0, 2168657382261825), (27732815117, 0), (0, 618325), (0, 57)], [(0,
    26771565765550174), (0, 118055695199), (27767909, 0), (3284, 0), (1, 0)], [(17308510795811, 0), (0, 1049856933),
    (0, 130042), (0, 23)], [(10291503743, 0), (893019, 0), (338, 0)]], 3, 4⟩, 72057594037927936, 15286556221845,
    4097901300300, ⟨[[(15784415144520, 0), (4365445028, 0), (0, 3942078), (891, 0), (4, 0)], [(4497039293, 0),
    (19242791, 0), (25159, 0), (0, 7)], [(0, 16281725), (0, 83058), (0, 143)], [(64370, 0), (412, 0), (1, 0)]], 3,
    4⟩, 17592186044416, 126714003,
    2418737041800294189416943214627952196509260276589159567424563784477014630978348897683322345968143062223738643465930350375120710,
    lc0⟩)) (.sy (.sx (.leaf ⟨404, 16, 530, 498, 16, 2084, ⟨[[(2985612854939648, 0), (0, 2692071151208263),
    (57940469538, 0), (0, 569470), (42, 0)], [(19616918173909906, 0), (0, 2410788738874), (34012714, 0), (0, 2111)],
    [(23880389416922, 0), (0, 984116185), (7292, 0), (5, 0)], [(17048810251, 0), (3785, 0), (0, 15)]], 3, 4⟩,
    ⟨[[(30388020627726336, 0), (0, 2978431864742237), (39555197115, 0), (0, 645111), (0, 30)], [(0,
    17277803979059651), (0, 135928661089), (12531152, 0), (570, 0)], [(6376525259212, 0), (0, 297971810), (0, 23670),
    (0, 6)], [(2091552253, 0), (94129, 0), (51, 0)]], 3, 4⟩, 72057594037927936, 1222195738675, 356054602132,
    ⟨[[(15913129709792, 0), (3563891123, 0), (0, 1823316), (329, 0), (1, 0)], [(3126333478, 0), (9530729, 0), (8449,
    0), (0, 1)], [(0, 8366001), (0, 29185), (0, 36)], [(23744, 0), (102, 0)]], 3, 4⟩, 17592186044416, 20830838,
    2841856559968439448039246401027009649207431305263803383584321952416976838858697190525315157871415376604586657188438625944161280,
    lc0⟩) (.leaf ⟨391, 16, 498, 493, 16, 2102, ⟨[[(0, 3156483838705664), (0, 2626301147338187), (55795271810, 0), (0,
    610010), (26, 0)], [(20403775407865246, 0), (0, 2342840046147), (32437668, 0), (0, 1569)], [(24516432593345, 0),
    (0, 922526551), (4256, 0), (5, 0)], [(16965574607, 0), (31871, 0), (0, 28)]], 3, 4⟩, ⟨[[(0, 19546004183990272),
    (0, 3010438896603456), (40389389020, 0), (0, 636069), (0, 17)], [(0, 16875146635472247), (0, 161862934487),
    (10905396, 0), (131, 0)], [(6714190734097, 0), (0, 289218077), (0, 17429), (0, 5)], [(2374305395, 0), (83801, 0),
    (51, 0)]], 3, 4⟩, 72057594037927936, 1171326604665, 342138325592, ⟨[[(15915806066482, 0), (3675493667, 0), (0,
    1704698), (281, 0), (1, 0)], [(3035599945, 0), (9205386, 0), (8016, 0), (0, 1)], [(0, 8302275), (0, 28312), (0,
    35)], [(23645, 0), (100, 0)]], 3, 4⟩, 17592186044416, 23615146,
    3721376481290979526337563924148547936672369935394253248142892869966048402695017007126302174059058791169362036290806823015841888,
    lc0⟩)) (.leaf ⟨279, 16, 378, 359, 16, 1582, ⟨[[(0, 9764005145337856), (0, 1914734624098892), (41224826030, 0),
    (0, 368234), (43, 0)], [(27701109674421730, 0), (0, 3450926635063), (44041516, 0), (0, 3775), (0, 1)],
    [(69833700239484, 0), (0, 2776897848), (39392, 0), (14, 0)], [(100161441212, 0), (18103, 0), (0, 44)]], 3, 4⟩,
    ⟨[[(0, 6812720691752960), (0, 2233279915756203), (29458731063, 0), (0, 532122), (0, 32)], [(0,
    25929363410785243), (0, 206848104687), (19177622, 0), (1583, 0), (1, 0)], [(19311795015074, 0), (0, 962344542),
    (0, 88309), (0, 19)], [(13860651523, 0), (878793, 0), (362, 0)]], 3, 4⟩, 72057594037927936, 13769592972663,
    3753570240657, ⟨[[(15784231817917, 0), (4656173108, 0), (0, 3400840), (559, 0), (3, 0)], [(4346312291, 0),
    (18206213, 0), (23101, 0), (0, 1)], [(0, 16797300), (0, 81329), (0, 145)], [(69056, 0), (418, 0), (1, 0)]], 3,
    4⟩, 17592186044416, 205242955,
    3538143498708629592102158654732239004167855713213647339084751900647177996964843574444513158606405196818015456637601915138785544,
    lc0⟩))) (.sx (.sy (.leaf ⟨307, 16, 460, 352, 16, 1549, ⟨[[(0, 15076193382064128), (0, 2111615812858121),
    (47787922796, 0), (0, 44774), (106, 0)], [(25238116456048942, 0), (0, 3870656192762), (40164237, 0), (0, 6924),
    (0, 1)], [(68822859731854, 0), (0, 3322052223), (53752, 0), (7, 0)], [(108013131312, 0), (34226, 0), (243, 0)]],
    3, 4⟩, ⟨[[(0, 30530687077023744), (0, 2152428924810998), (26844329842, 0), (0, 755638), (0, 76)], [(0,
    26962621857877062), (0, 87773044400), (34023758, 0), (4858, 0), (1, 0)], [(16832614987321, 0), (0, 1205013735),
    (0, 168563), (0, 27)], [(10885644516, 0), (1265736, 0), (395, 0)]], 3, 4⟩, 72057594037927936, 16019773711715,
    4198863671362, ⟨[[(15656617621338, 0), (4185265612, 0), (0, 4318739), (703, 0), (5, 0)], [(4464129487, 0),
    (19895150, 0), (28442, 0), (0, 7)], [(0, 16278218), (0, 88768), (0, 171)], [(65454, 0), (465, 0), (1, 0)]], 3,
    4⟩, 17592186044416, 130044310,
    2979820984091615219993138785638027318547756595965571930114990512693484600223331737156195685039732989641396922929909454947320571,
    lc0⟩) (.leaf ⟨307, 16, 483, 339, 16, 1558, ⟨[[(0, 10132244854026240), (0, 2166793993837583), (50290111459, 0),
    (207398, 0), (143, 0)], [(24469463307113749, 0), (0, 4027696317065), (30163712, 0), (0, 8699), (0, 1)],
    [(70527985528951, 0), (0, 3426745398), (65419, 0), (5, 0)], [(113506925627, 0), (357312, 0), (388, 0)]], 3, 4⟩,
    ⟨[[(0, 26682237613846528), (0, 2138442089986667), (25731460104, 0), (0, 930893), (0, 94)], [(0,
    27154300616792439), (0, 49785294559), (42927916, 0), (6722, 0), (1, 0)], [(16275633296680, 0), (0, 1404215963),
    (0, 214598), (0, 33)], [(11693209555, 0), (1703067, 0), (461, 0)]], 3, 4⟩, 72057594037927936, 16718778292339,
    4340388589565, ⟨[[(15528640943403, 0), (3993970810, 0), (0, 4748793), (450, 0), (7, 0)], [(4430889286, 0),
    (20640018, 0), (32643, 0), (0, 7)], [(0, 16280465), (0, 96061), (0, 213)], [(67073, 0), (543, 0), (1, 0)]], 3,
    4⟩, 17592186044416, 138782272,
    3855066010294704294998236706946645076602788341258982587875103466254082402465339758816264773027308458407548003357579028309283382,
    lc0⟩)) (.sy (.leaf ⟨278, 16, 395, 345, 16, 1590, ⟨[[(0, 27609012295888896), (0, 1957861339793409), (42577994223,
    0), (0, 273218), (66, 0)], [(27147713382162194, 0), (0, 3563193753757), (39207964, 0), (0, 5117), (0, 1)],
    [(71529886199048, 0), (0, 2849513444), (62767, 0), (14, 0)], [(104671500588, 0), (17990, 0), (45, 0)]], 3, 4⟩,
    ⟨[[(13389771017912320, 0), (0, 2215269407719993), (28747212576, 0), (0, 612511), (0, 45)], [(0,
    26159751576386325), (0, 187033591171), (22598108, 0), (2857, 0), (1, 0)], [(18899032633606, 0), (0, 1071562247),
    (0, 120010), (0, 23)], [(14470895515, 0), (1279244, 0), (427, 0)]], 3, 4⟩, 72057594037927936, 14387074961772,
    3699214018833, ⟨[[(15654651671325, 0), (4500391400, 0), (0, 3711434), (360, 0), (3, 0)], [(4309269480, 0),
    (18744705, 0), (25942, 0), (1, 0)], [(0, 16762431), (0, 86033), (0, 170)], [(69772, 0), (460, 0), (1, 0)]], 3,
    4⟩, 17592186044416, 209208812,
    3003050896126014549026409463629490124107830154656214994845084158697400581068494805216472713160960293166341741603961313738738959,
    lc0⟩) (.leaf ⟨276, 16, 413, 332, 16, 1598, ⟨[[(11652210340610048, 0), (0, 2002561785569754), (44205252398, 0),
    (0, 121695), (94, 0)], [(26524202941208835, 0), (0, 3688778872017), (31958425, 0), (0, 6667), (0, 1)],
    [(73312196971371, 0), (0, 2902620461), (87075, 0), (14, 0)], [(109471179479, 0), (117377, 0), (151, 0)]], 3, 4⟩,
    ⟨[[(0, 35173653225668608), (0, 2197898183803728), (27889068699, 0), (0, 720392), (0, 58)], [(0,
    26379604576148526), (0, 162640389676), (28127551, 0), (4357, 0), (1, 0)], [(18420096701706, 0), (0, 1216238485),
    (0, 157914), (0, 27)], [(15303087875, 0), (1752051, 0), (502, 0)]], 3, 4⟩, 72057594037927936, 14922048132792,
    3636701352616, ⟨[[(15527945877022, 0), (4318142820, 0), (0, 4081395), (109, 0), (4, 0)], [(4319852767, 0),
    (19548052, 0), (29733, 0), (4, 0)], [(0, 16990213), (0, 93242), (0, 209)], [(71878, 0), (528, 0), (2, 0)]], 3,
    4⟩, 17592186044416, 224246527,
    3529980347526424060228585643275732170688440346549739757941627224303791410481914261654108117435276824252566537931700723059101008,
    lc0⟩)))
theorem c40 : checkR job con0 false ⟨7, 9, 7, 9, 13, 17⟩ 1 30400 t40 537 21 320 15247 251 16000 = true := by decide +kernel

def t41 : CTree :=
  .sy (.sx (.sy (.sx (.leaf ⟨379, 16, 468, 487, 16, 2121, ⟨[[(11638790514958336, 0), (0, 2562088362369645),
    (53719305543, 0), (0, 625582), (10, 0)], [(21195915020849167, 0), (0, 2274315470595), (30658308, 0), (0, 1003)],
    [(25105214342214, 0), (0, 861169459), (0, 135), (6, 0)], [(16847034485, 0), (63142, 0), (0, 40)]], 3, 4⟩,
    ⟨[[(30698850768130048, 0), (0, 3045018791738981), (41189362730, 0), (0, 644663), (0, 5)], [(0,
    16445454053306453), (0, 187420189737), (9793553, 0), (0, 258)], [(7093091265714, 0), (0, 282196344), (0, 11281),
    (0, 4)], [(2653845185, 0), (67541, 0), (49, 0)]], 3, 4⟩, 72057594037927936, 1114665078417, 335187566693,
    ⟨[[(15912524465716, 0), (3783843620, 0), (0, 1590292), (238, 0), (1, 0)], [(2930307222, 0), (8860355, 0), (7569,
    0)], [(0, 8198581), (0, 27302), (0, 33)], [(23301, 0), (97, 0)]], 3, 4⟩, 17592186044416, 26544727,
    4334856331475258346654461343900845720678721215734664322747083141014981242434853486323737873363049698529632965599574249261963606,
    lc0⟩) (.leaf ⟨369, 16, 440, 483, 16, 2141, ⟨[[(0, 22610660299137024), (0, 2500030463648000), (51712679752, 0),
    (0, 617141), (0, 4)], [(21995784025115422, 0), (0, 2205875666226), (28590326, 0), (0, 425)], [(25652957592612,
    0), (0, 799766844), (0, 5733), (7, 0)], [(16698009983, 0), (99079, 0), (0, 52)]], 3, 4⟩, ⟨[[(0,
    34269050218102784), (0, 3082175530326908), (41976467639, 0), (0, 668900), (5, 0)], [(0, 15984462693011712), (0,
    212791145169), (9184209, 0), (0, 595)], [(7513530666386, 0), (0, 277588896), (0, 5393), (0, 4)], [(2932025342,
    0), (46588, 0), (46, 0)]], 3, 4⟩, 72057594037927936, 1061515723727, 329002489343, ⟨[[(15917302220339, 0),
    (3887385158, 0), (0, 1471654), (203, 0), (1, 0)], [(2820913548, 0), (8491304, 0), (7058, 0)], [(0, 8072267), (0,
    26093), (0, 31)], [(22678, 0), (92, 0)]], 3, 4⟩, 17592186044416, 29430430,
    4628826098026785040922681239097318677842467971868875135347067750157807054753700440854536005931741022692308148100484482598763932,
    lc0⟩)) (.sx (.leaf ⟨375, 16, 485, 470, 16, 2138, ⟨[[(0, 26624373704814592), (0, 2599744355369964), (54721344402,
    0), (0, 604887), (33, 0)], [(20790526510406028, 0), (0, 2325993145112), (29676341, 0), (0, 1748)],
    [(25569903041939, 0), (0, 887865058), (9230, 0), (6, 0)], [(17482405655, 0), (29799, 0), (0, 30)]], 3, 4⟩,
    ⟨[[(6718884809498624, 0), (0, 3028235168405096), (40525275522, 0), (0, 675523), (0, 20)], [(0,
    16669631943832094), (0, 179062772644), (9919315, 0), (341, 0)], [(7003706565508, 0), (0, 299350621), (0, 18507),
    (0, 5)], [(2722407629, 0), (121821, 0), (58, 0)]], 3, 4⟩, 72057594037927936, 1171145191126, 330625489263,
    ⟨[[(15783866950067, 0), (3666070004, 0), (0, 1716119), (175, 0), (1, 0)], [(2926088726, 0), (9115902, 0), (8407,
    0)], [(0, 8270082), (0, 28889), (0, 38)], [(24195, 0), (106, 0)]], 3, 4⟩, 17592186044416, 28112927,
    3830619246350249703355436696586748857345409987118066468032948760183536230930181378296154063967644215185985392254747140497868096,
    lc0⟩) (.leaf ⟨363, 16, 455, 465, 16, 2158, ⟨[[(31011302172680192, 0), (0, 2532051164609446), (52518769209, 0),
    (0, 625659), (17, 0)], [(21607913760013553, 0), (0, 2251894827676), (28394654, 0), (0, 1118)], [(26111682320466,
    0), (0, 827877708), (4208, 0), (7, 0)], [(17306112575, 0), (54049, 0), (0, 43)]], 3, 4⟩, ⟨[[(0,
    10115175508029440), (0, 3064678224259798), (41296204064, 0), (0, 676134), (0, 7)], [(0, 16216779061994304), (0,
    205510653359), (8746772, 0), (0, 61)], [(7430875483565, 0), (0, 288215226), (0, 11530), (0, 4)], [(2991188189,
    0), (97430, 0), (55, 0)]], 3, 4⟩, 72057594037927936, 1117503822279, 323047513220, ⟨[[(15782402653715, 0),
    (3765911325, 0), (0, 1595416), (143, 0), (1, 0)], [(2835732882, 0), (8794689, 0), (7922, 0)], [(0, 8220131), (0,
    27953), (0, 36)], [(24073, 0), (103, 0)]], 3, 4⟩, 17592186044416, 32393488,
    4179965957893932337043212605853169709793728580921689014411333003727939218216286394044000859208400346823450046970483249754496530,
    lc0⟩))) (.sy (.sx (.leaf ⟨359, 16, 413, 478, 16, 2162, ⟨[[(0, 21475454036344832), (0, 2434897647077517),
    (49653182237, 0), (0, 584704), (0, 16)], [(22753033257289182, 0), (0, 2133002001517), (26103945, 0), (151, 0)],
    [(26104645730422, 0), (0, 736093604), (0, 12332), (7, 0)], [(16482918284, 0), (140621, 0), (0, 62)]], 3, 4⟩,
    ⟨[[(2731602173411328, 0), (0, 3121923369044538), (42771449975, 0), (0, 706815), (15, 0)], [(0,
    15487807865305009), (0, 238218073596), (9053639, 0), (0, 883)], [(7976075511850, 0), (0, 275914799), (98, 0), (0,
    3)], [(3210542531, 0), (22422, 0), (42, 0)]], 3, 4⟩, 72057594037927936, 997727709210, 320022018400,
    ⟨[[(15915213808413, 0), (3984859335, 0), (0, 1360412), (168, 0), (1, 0)], [(2706164528, 0), (8138412, 0), (6588,
    0)], [(0, 7965585), (0, 24964), (0, 29)], [(22007, 0), (88, 0)]], 3, 4⟩, 17592186044416, 33031190,
    4614811825033753221596827800664993098243227532684352602593833236315745879061956400088888461480140321533913913255677645462621053,
    lc0⟩) (.leaf ⟨350, 16, 388, 474, 16, 2185, ⟨[[(4645529075433472, 0), (0, 2372879048780846), (47652554656, 0), (0,
    531508), (0, 28)], [(23519070992094699, 0), (0, 2061181203149), (23219992, 0), (715, 0)], [(26523327263036, 0),
    (0, 671452530), (0, 19725), (7, 0)], [(16241376515, 0), (188873, 0), (0, 71)]], 3, 4⟩, ⟨[[(14468034584727552, 0),
    (0, 3165737608424826), (43613966883, 0), (0, 756884), (24, 0)], [(0, 14957844200745195), (0, 264101455247),
    (9372350, 0), (0, 1125)], [(8485404987288, 0), (0, 277627118), (5088, 0), (0, 2)], [(3492302948, 0), (0, 3266),
    (37, 0)]], 3, 4⟩, 72057594037927936, 933207166729, 317792419163, ⟨[[(15913598844894, 0), (4070450328, 0), (0,
    1253409), (136, 0), (1, 0)], [(2591531930, 0), (7795630, 0), (6129, 0)], [(0, 7881768), (0, 23858), (0, 27)],
    [(21266, 0), (84, 0)]], 3, 4⟩, 17592186044416, 36916818,
    4479951110087835595805093692742606657517550120164840734714614978621274727520103937616579228938803316276429106074963504862117858,
    lc0⟩)) (.sx (.leaf ⟨354, 16, 427, 460, 16, 2179, ⟨[[(0, 35904684772577280), (0, 2466358101939565), (50409728937,
    0), (0, 619715), (2, 0)], [(22424059061904704, 0), (0, 2178254340039), (26739000, 0), (0, 490)],
    [(26605191145977, 0), (0, 768474686), (0, 2078), (7, 0)], [(17099237309, 0), (85467, 0), (0, 55)]], 3, 4⟩,
    ⟨[[(1867770871103488, 0), (0, 3103723366600262), (42052467643, 0), (0, 692754), (4, 0)], [(0, 15727914349681588),
    (0, 231486632189), (8137289, 0), (0, 406)], [(7898810817658, 0), (0, 280463580), (0, 5004), (0, 4)],
    [(3258369622, 0), (68709, 0), (50, 0)]], 3, 4⟩, 72057594037927936, 1055358133082, 313955641143,
    ⟨[[(15784326691778, 0), (3875965729, 0), (0, 1464665), (113, 0), (1, 0)], [(2706947960, 0), (8364435, 0), (7308,
    0)], [(0, 8019341), (0, 26379), (0, 33)], [(23110, 0), (96, 0)]], 3, 4⟩, 17592186044416, 35797261,
    4249900782275842022788255672863041739042812469305844667188764521481877147153143814811002764641529768995414134224770247195750262,
    lc0⟩) (.leaf ⟨344, 16, 400, 456, 16, 2201, ⟨[[(1422714375843840, 0), (0, 2397370710601545), (48266724367, 0), (0,
    587810), (0, 11)], [(23185856911069882, 0), (0, 2100492477330), (24585977, 0), (122, 0)], [(26991944189597, 0),
    (0, 707107199), (0, 9352), (7, 0)], [(16823629462, 0), (125028, 0), (0, 66)]], 3, 4⟩, ⟨[[(0, 28142974242295808),
    (0, 3145375494238100), (42816980279, 0), (0, 723194), (15, 0)], [(0, 15198676325006171), (0, 257308979934),
    (8051879, 0), (0, 697)], [(8408109536011, 0), (0, 276542508), (939, 0), (0, 3)], [(3526201894, 0), (37680, 0),
    (45, 0)]], 3, 4⟩, 72057594037927936, 991962953647, 306163651903, ⟨[[(15784582460343, 0), (3965638090, 0), (0,
    1348728), (87, 0), (1, 0)], [(2605532359, 0), (8034881, 0), (6810, 0)], [(0, 7963326), (0, 25325), (0, 31)],
    [(22601, 0), (92, 0)]], 3, 4⟩, 17592186044416, 41077955,
    4238439276287467552181936727016006837538114952492643667842281618471380065717199211833787896559157785318952550078695150571265238,
    lc0⟩)))) (.sx (.sy (.sx (.leaf ⟨369, 16, 502, 452, 16, 2154, ⟨[[(15316947457458176, 0), (0, 2634456320783720),
    (55760852273, 0), (0, 532051), (60, 0)], [(20318178011200192, 0), (0, 2378242589383), (27417724, 0), (0, 2578)],
    [(26008042594993, 0), (0, 904631357), (19009, 0), (6, 0)], [(18104041336, 0), (6576, 0), (0, 18)]], 3, 4⟩,
    ⟨[[(35905361954484224, 0), (0, 3010432218049711), (39765302003, 0), (0, 736307), (0, 35)], [(0,
    16882360017082103), (0, 169935856252), (11037319, 0), (1062, 0)], [(6899332557402, 0), (0, 324495327), (0,
    27233), (0, 6)], [(2819981660, 0), (186580, 0), (69, 0)]], 3, 4⟩, 72057594037927936, 1220211958959, 324562753822,
    ⟨[[(15651421444034, 0), (3541112990, 0), (0, 1866494), (97, 0), (1, 0)], [(2940466103, 0), (9472067, 0), (9501,
    0), (1, 0)], [(0, 8452625), (0, 31147), (0, 45)], [(25446, 0), (119, 0)]], 3, 4⟩, 17592186044416, 30828413,
    3023609009979414587125509054229268521166346553139324562349204801815578192451657983398774720732815181588453877775021993925516270,
    lc0⟩) (.leaf ⟨357, 16, 470, 447, 16, 2174, ⟨[[(27291958618603520, 0), (0, 2561535237344584), (53314374657, 0),
    (0, 588646), (41, 0)], [(21159766411878190, 0), (0, 2297739398565), (27047849, 0), (0, 1882)], [(26545174959279,
    0), (0, 845623839), (14651, 0), (7, 0)], [(17894369824, 0), (16619, 0), (0, 34)]], 3, 4⟩, ⟨[[(0,
    4203001196621824), (0, 3046152103675720), (40558990672, 0), (0, 708646), (0, 20)], [(0, 16438713731943878), (0,
    198077948780), (9191847, 0), (584, 0)], [(7336694531874, 0), (0, 305604267), (0, 18990), (0, 5)], [(3077319111,
    0), (158309, 0), (65, 0)]], 3, 4⟩, 72057594037927936, 1165961217633, 312376770175, ⟨[[(15652938928928, 0),
    (3651296323, 0), (0, 1726234), (73, 0), (1, 0)], [(2845702063, 0), (9102513, 0), (8884, 0), (1, 0)], [(0,
    8374314), (0, 29939), (0, 42)], [(25335, 0), (114, 0)]], 3, 4⟩, 17592186044416, 35547055,
    3236400475105455004434031978819512708243707178844371925460176672344393387667544612264253117357477680029935444229650015421439147,
    lc0⟩)) (.sx (.leaf ⟨364, 16, 520, 435, 16, 2170, ⟨[[(0, 25873281062899712), (0, 2671309263893121), (57038511343,
    0), (0, 397533), (91, 0)], [(19816825174300133, 0), (0, 2437232367120), (23749135, 0), (0, 3517)],
    [(26475968036233, 0), (0, 912449184), (29335, 0), (6, 0)], [(18753175209, 0), (0, 4492), (0, 4)]], 3, 4⟩, ⟨[[(0,
    9380602028470272), (0, 2993153246879610), (38883476506, 0), (0, 825976), (0, 48)], [(0, 17090741393852276), (0,
    159020871174), (13349466, 0), (1912, 0)], [(6778732074240, 0), (0, 359476633), (0, 37749), (0, 7)], [(2953773134,
    0), (263657, 0), (82, 0)]], 3, 4⟩, 72057594037927936, 1263142023819, 319823071252, ⟨[[(15528087652321, 0),
    (3421520348, 0), (0, 2021427), (4, 0), (1, 0)], [(2946560316, 0), (9807623, 0), (10685, 0), (2, 0)], [(0,
    8589700), (0, 33385), (0, 53)], [(26316, 0), (132, 0)]], 3, 4⟩, 17592186044416, 33216815,
    2539668035333614957076639247370701007062889604521175153141695591664493553099028635215768464431018693507475210650350367656759097,
    lc0⟩) (.leaf ⟨352, 16, 487, 429, 16, 2190, ⟨[[(475534596993024, 0), (0, 2599159378288716), (54400753471, 0), (0,
    499440), (68, 0)], [(20736724668772861, 0), (0, 2354382781633), (24496183, 0), (0, 2745)], [(27070179489710, 0),
    (0, 855639753), (25796, 0), (7, 0)], [(18542474049, 0), (0, 11817), (0, 23)]], 3, 4⟩, ⟨[[(0, 361058077954048),
    (0, 3028101197567295), (39746511788, 0), (0, 765209), (0, 31)], [(0, 16657434067604145), (0, 189611041580),
    (10700126, 0), (1342, 0)], [(7230613508535, 0), (0, 331390628), (0, 28023), (0, 6)], [(3197472486, 0), (230945,
    0), (77, 0)]], 3, 4⟩, 72057594037927936, 1208623077703, 300242685562, ⟨[[(15526616785310, 0), (3538396809, 0),
    (0, 1867361), (0, 14), (1, 0)], [(2845031671, 0), (9394957, 0), (9949, 0), (1, 0)], [(0, 8480604), (0, 31907),
    (0, 49)], [(26186, 0), (126, 0)]], 3, 4⟩, 17592186044416, 38205469,
    2410504636728421950121204793238302943126614063689816577588536323693692857314335846952435730134036118001243531919428737085991650,
    lc0⟩))) (.sy (.sx (.leaf ⟨348, 16, 441, 442, 16, 2195, ⟨[[(0, 34061931477856256), (0, 2495431732100049),
    (51112292280, 0), (0, 614741), (23, 0)], [(22036812174682664, 0), (0, 2222501085976), (26338051, 0), (0, 1194)],
    [(27079445405999, 0), (0, 790352669), (8742, 0), (7, 0)], [(17690552845, 0), (35506, 0), (0, 48)]], 3, 4⟩, ⟨[[(0,
    16615845238726656), (0, 3084509476782015), (41311499670, 0), (0, 699743), (0, 6)], [(0, 15958429661024966), (0,
    225125007714), (8007464, 0), (173, 0)], [(7813214927025, 0), (0, 290611506), (0, 11266), (0, 5)], [(3330488691,
    0), (124343, 0), (60, 0)]], 3, 4⟩, 72057594037927936, 1110503176651, 302876904672, ⟨[[(15655950345513, 0),
    (3765565505, 0), (0, 1581587), (50, 0), (1, 0)], [(2718435351, 0), (8643110, 0), (8169, 0)], [(0, 8153090), (0,
    28169), (0, 38)], [(24444, 0), (107, 0)]], 3, 4⟩, 17592186044416, 39612424,
    3357244223581243244763021185477512338473166725206308555817799125060239432999187875774000323155672238947401734711405012813871794,
    lc0⟩) (.leaf ⟨338, 16, 413, 437, 16, 2217, ⟨[[(9306678632341504, 0), (0, 2425712693479769), (48913856970, 0), (0,
    610370), (8, 0)], [(22857073197675535, 0), (0, 2143339134353), (25088428, 0), (0, 523)], [(27501188098759, 0),
    (0, 734149332), (1552, 0), (7, 0)], [(17418742159, 0), (64774, 0), (0, 60)]], 3, 4⟩, ⟨[[(0, 72241742106624), (0,
    3125484028964445), (42049505254, 0), (0, 707027), (6, 0)], [(0, 15437299139525193), (0, 251440092805), (7438682,
    0), (0, 176)], [(8329223866498, 0), (0, 280111317), (0, 4221), (0, 4)], [(3582871791, 0), (87102, 0), (53, 0)]],
    3, 4⟩, 72057594037927936, 1049639967001, 295628580515, ⟨[[(15653463250560, 0), (3861695479, 0), (0, 1453982),
    (28, 0), (1, 0)], [(2611437267, 0), (8277680, 0), (7594, 0)], [(0, 8050634), (0, 26907), (0, 36)], [(23917, 0),
    (102, 0)]], 3, 4⟩, 17592186044416, 45671577,
    3404429248331947117948846630886628967205115810872962349360935359151529007612207582041561713510090084468678206201307709124301702,
    lc0⟩)) (.sx (.leaf ⟨342, 16, 456, 423, 16, 2211, ⟨[[(0, 32024082411233280), (0, 2527713521323692), (51941892000,
    0), (0, 563425), (48, 0)], [(21639402910726717, 0), (0, 2271872052312), (24819337, 0), (0, 1978)],
    [(27593484029783, 0), (0, 802521847), (20277, 0), (7, 0)], [(18298997855, 0), (0, 8320), (0, 40)]], 3, 4⟩,
    ⟨[[(35203570058764288, 0), (0, 3065751469100842), (40537102316, 0), (0, 726503), (0, 15)], [(0,
    16186516678015698), (0, 218371299952), (8826860, 0), (852, 0)], [(7719752133346, 0), (0, 307798551), (0, 18900),
    (0, 5)], [(3433659084, 0), (190877, 0), (71, 0)]], 3, 4⟩, 72057594037927936, 1157368119794, 287166749344,
    ⟨[[(15526067853761, 0), (3657415408, 0), (0, 1710260), (0, 28), (1, 0)], [(2721141939, 0), (8923528, 0), (9154,
    0), (1, 0)], [(0, 8275574), (0, 30072), (0, 45)], [(25560, 0), (118, 0)]], 3, 4⟩, 17592186044416, 43481996,
    2249511430685022438185800044626317679564030197483864504359144273524873595906446234677162385988650848534873504597225020325078163,
    lc0⟩) (.leaf ⟨332, 16, 426, 418, 16, 2233, ⟨[[(0, 34819752700878848), (0, 2451880543335676), (49528815864, 0),
    (0, 591211), (30, 0)], [(22473152709832774, 0), (0, 2185403419749), (24549070, 0), (0, 1231)], [(27988071240977,
    0), (0, 749862257), (13138, 0), (8, 0)], [(17985533381, 0), (8167, 0), (0, 55)]], 3, 4⟩, ⟨[[(26544587718471680,
    0), (0, 3106054237196628), (41286359707, 0), (0, 706820), (0, 1)], [(0, 15673959107947246), (0, 245717248574),
    (7676108, 0), (434, 0)], [(8246127543756, 0), (0, 289474400), (0, 10575), (0, 5)], [(3667074408, 0), (146351, 0),
    (63, 0)]], 3, 4⟩, 72057594037927936, 1098330960129, 278193060143, ⟨[[(15526530611655, 0), (3763337516, 0), (0,
    1563203), (0, 41), (1, 0)], [(2610453944, 0), (8511488, 0), (8446, 0), (1, 0)], [(0, 8141620), (0, 28543), (0,
    41)], [(25078, 0), (112, 0)]], 3, 4⟩, 17592186044416, 50417465,
    2136686056469041398692463146832998773311746758390980215761414912405000736854117832819541421829727154210109694269886615644771120,
    lc0⟩))))
theorem c41 : checkR job con0 false ⟨7, 9, 7, 9, 13, 17⟩ 1 30400 t41 579 21 320 15247 251 16000 = true := by decide +kernel

def t42 : CTree :=
  .sx (.sy (.sx (.leaf ⟨423, 16, 707, 445, 16, 2115, ⟨[[(0, 21956684739563520), (0, 3036432573115488), (74178152854,
    0), (932926, 0), (274, 0)], [(15403189182072786, 0), (0, 2878925650324), (10671332, 0), (0, 7538), (0, 1)],
    [(23894402524179, 0), (0, 1238630286), (19754, 0)], [(20179164746, 0), (163302, 0), (105, 0)]], 3, 4⟩, ⟨[[(0,
    356079124922368), (0, 2869142184706255), (32004401645, 0), (0, 1673538), (0, 166)], [(0, 18658447910384862),
    (23209799652, 0), (41009587, 0), (6569, 0), (1, 0)], [(5134088719888, 0), (0, 581687201), (0, 96573), (0, 14)],
    [(1989580451, 0), (360872, 0), (87, 0)]], 3, 4⟩, 72057594037927936, 1555836656332, 433586979409,
    ⟨[[(15402244123294, 0), (2731970117, 0), (0, 2947106), (95, 0), (3, 0)], [(3293241543, 0), (11970670, 0), (15747,
    0), (0, 3)], [(0, 8983553), (0, 43749), (0, 83)], [(28904, 0), (203, 0)]], 3, 4⟩, 17592186044416, 27379182,
    4326777063815834668630686538602316069038685404233331967249078868585223643976831344046571351306386627243889836898159497634201784,
    lc0⟩) (.leaf ⟨404, 16, 661, 438, 16, 2132, ⟨[[(11071945217744896, 0), (0, 2953950826015162), (69810515407, 0),
    (577397, 0), (232, 0)], [(16379498599385189, 0), (0, 2788123713146), (12025621, 0), (0, 6960), (0, 1)],
    [(24792647182167, 0), (0, 1140441091), (29994, 0), (2, 0)], [(20071942473, 0), (124668, 0), (84, 0)]], 3, 4⟩,
    ⟨[[(0, 18887611607793664), (0, 2892228092049399), (33832830085, 0), (0, 1432504), (0, 134)], [(0,
    18362507219133227), (0, 23886970387), (33640751, 0), (5513, 0), (1, 0)], [(5448232469227, 0), (0, 538982451), (0,
    85804), (0, 13)], [(2319303151, 0), (385138, 0), (95, 0)]], 3, 4⟩, 72057594037927936, 1483297978558,
    390975872801, ⟨[[(15401453765156, 0), (2873481968, 0), (0, 2766209), (0, 28), (2, 0)], [(3230349398, 0),
    (11586316, 0), (15106, 0), (1, 0)], [(0, 8982736), (0, 42178), (0, 83)], [(28395, 0), (194, 0)]], 3, 4⟩,
    17592186044416, 28787147,
    4325270061273251507207733687868886026036232935242246703852951792601812899194780959430991076109126212247988349551078160688120379,
    lc0⟩)) (.sx (.leaf ⟨421, 16, 740, 428, 16, 2131, ⟨[[(0, 31890839690153984), (0, 3099319466786392), (79574976166,
    0), (1613556, 0), (349, 0)], [(14611248651522344, 0), (0, 3008373630918), (0, 1679066), (0, 9199), (0, 1)],
    [(24364053178272, 0), (0, 1275997049), (19814, 0), (0, 1)], [(21237290166, 0), (297611, 0), (143, 0)]], 3, 4⟩,
    ⟨[[(23893914851061760, 0), (0, 2859833783171115), (29443839592, 0), (0, 2042694), (0, 187)], [(0,
    18776555927468157), (70306350466, 0), (52593855, 0), (8394, 0), (1, 0)], [(4852373464166, 0), (0, 694803436), (0,
    119910), (0, 16)], [(2210449560, 0), (458774, 0), (102, 0)]], 3, 4⟩, 72057594037927936, 1606263671942,
    450655787834, ⟨[[(15278539028674, 0), (2576954386, 0), (0, 3266748), (0, 146), (4, 0)], [(3279241349, 0),
    (12600858, 0), (18992, 0), (0, 1)], [(0, 9145018), (0, 49940), (0, 114)], [(32077, 0), (264, 0), (1, 0)]], 3, 4⟩,
    17592186044416, 34462734,
    4953884898873005930089835102987197744863084226675627856319609761734930513515849232025897452586661506757913976955028513017577783,
    lc0⟩) (.leaf ⟨401, 16, 690, 421, 16, 2149, ⟨[[(0, 24558236754108416), (0, 3009799357406599), (74174711028, 0),
    (1144098, 0), (298, 0)], [(15639275876258389, 0), (0, 2903650139157), (664130, 0), (0, 8549), (0, 1)],
    [(25290911568104, 0), (0, 1157481523), (34267, 0), (2, 0)], [(21042269509, 0), (232183, 0), (117, 0)]], 3, 4⟩,
    ⟨[[(2528642640363520, 0), (0, 2882213280643819), (31714649459, 0), (0, 1732702), (0, 151)], [(0,
    18511715559500675), (14553941876, 0), (43442596, 0), (7138, 0), (1, 0)], [(5195474938023, 0), (0, 640291923), (0,
    107363), (0, 15)], [(2558029523, 0), (491889, 0), (111, 0)]], 3, 4⟩, 72057594037927936, 1521698893219,
    393952392201, ⟨[[(15278885065616, 0), (2729400318, 0), (0, 3045054), (0, 279), (3, 0)], [(3216484429, 0),
    (12121054, 0), (17939, 0), (4, 0)], [(0, 9085308), (0, 47261), (0, 112)], [(30585, 0), (244, 0), (1, 0)]], 3, 4⟩,
    17592186044416, 34489993,
    5356757739666345773941339310540381627682466719806029627566279919713337518790613236468782258915349397419438790929885165631089458,
    lc0⟩))) (.sy (.sx (.leaf ⟨387, 16, 618, 431, 16, 2150, ⟨[[(27044070383869952, 0), (0, 2873143878613517),
    (65796300315, 0), (271290, 0), (194, 0)], [(17362393095904274, 0), (0, 2695755922153), (13982334, 0), (0, 6252),
    (0, 1)], [(25616403951100, 0), (0, 1053733948), (36789, 0), (4, 0)], [(19913533751, 0), (80880, 0), (60, 0)]], 3,
    4⟩, ⟨[[(0, 16045648540831744), (0, 2918588112161349), (35397833757, 0), (0, 1232762), (0, 106)], [(0,
    18043137517435758), (0, 67676782259), (27169112, 0), (4545, 0), (1, 0)], [(5806864635492, 0), (0, 494216080), (0,
    74254), (0, 11)], [(2617583888, 0), (391456, 0), (99, 0)]], 3, 4⟩, 72057594037927936, 1416321836737,
    352612213219, ⟨[[(15400707325673, 0), (3014729519, 0), (0, 2578448), (0, 94), (2, 0)], [(3151955328, 0),
    (11152005, 0), (14224, 0), (3, 0)], [(0, 8939977), (0, 40261), (0, 79)], [(27879, 0), (180, 0)]], 3, 4⟩,
    17592186044416, 30499760,
    4314561752758214805203150558277564880122775364177584965152832041746121626985078914340626845166528746284222515223026919341279360,
    lc0⟩) (.leaf ⟨372, 16, 578, 424, 16, 2168, ⟨[[(26904145595437056, 0), (0, 2794806919369482), (62151378924, 0),
    (15836, 0), (159, 0)], [(18351601479848067, 0), (0, 2603723961498), (16229805, 0), (0, 5456), (0, 1)],
    [(26373859617064, 0), (0, 978385234), (40221, 0), (6, 0)], [(19720357070, 0), (37333, 0), (36, 0)]], 3, 4⟩,
    ⟨[[(0, 5393084506906624), (0, 2946739043950319), (36720150365, 0), (0, 1070139), (0, 81)], [(0,
    17687917858072280), (0, 108033578924), (21634697, 0), (3670, 0), (1, 0)], [(6203957480908, 0), (0, 449324209),
    (0, 62318), (0, 10)], [(2886635847, 0), (380858, 0), (99, 0)]], 3, 4⟩, 72057594037927936, 1362920809900,
    326045870559, ⟨[[(15400374051899, 0), (3154886036, 0), (0, 2391039), (0, 120), (1, 0)], [(3059625490, 0),
    (10687090, 0), (13226, 0), (4, 0)], [(0, 8855455), (0, 38198), (0, 73)], [(27437, 0), (165, 0)]], 3, 4⟩,
    17592186044416, 32932454,
    3754847693602523861681988049525222670815273076466336025355692219039834791164110650185176593761011350293976216834425872408702260,
    lc0⟩)) (.sx (.leaf ⟨383, 16, 644, 414, 16, 2166, ⟨[[(3951220647931904, 0), (0, 2924859760052137), (69319888968,
    0), (736872, 0), (251, 0)], [(16685456574799028, 0), (0, 2799768221937), (3848055, 0), (0, 7748), (0, 1)],
    [(26153071110203, 0), (0, 1056472279), (44447, 0), (4, 0)], [(20811480277, 0), (159699, 0), (88, 0)]], 3, 4⟩,
    ⟨[[(0, 27277263895433216), (0, 2905498809183348), (33622093807, 0), (0, 1470220), (0, 119)], [(0,
    18204118971077687), (0, 36895687452), (35300173, 0), (5979, 0), (1, 0)], [(5579761494025, 0), (0, 582234652), (0,
    93751), (0, 14)], [(2861466475, 0), (502512, 0), (116, 0)]], 3, 4⟩, 72057594037927936, 1445720691759,
    343308949289, ⟨[[(15278811329165, 0), (2875206594, 0), (0, 2832549), (0, 328), (2, 0)], [(3149950146, 0),
    (11660378, 0), (16733, 0), (6, 0)], [(0, 9050472), (0, 44677), (0, 105)], [(29470, 0), (222, 0), (1, 0)]], 3, 4⟩,
    17592186044416, 35626835,
    5389719831256196112465071790168746254358914912481969244473474181642188357308446712170712049592391775272177833813329522954161782,
    lc0⟩) (.leaf ⟨367, 16, 601, 407, 16, 2184, ⟨[[(12391815901937664, 0), (0, 2841034327132933), (64921069677, 0),
    (391658, 0), (209, 0)], [(17726274081654680, 0), (0, 2694963608054), (7471388, 0), (0, 6837), (0, 1)],
    [(26923908184159, 0), (0, 971006604), (50417, 0), (6, 0)], [(20535693692, 0), (86814, 0), (59, 0)]], 3, 4⟩,
    ⟨[[(0, 35974550137151488), (0, 2932204934777914), (35238398439, 0), (0, 1252698), (0, 91)], [(0,
    17867091309068303), (0, 83851305816), (28275973, 0), (4933, 0), (1, 0)], [(6005337871066, 0), (0, 523915925), (0,
    79699), (0, 12)], [(3127134693, 0), (492521, 0), (117, 0)]], 3, 4⟩, 72057594037927936, 1385597214504,
    308202406881, ⟨[[(15278952099192, 0), (3020465825, 0), (0, 2618165), (0, 326), (1, 0)], [(3067548564, 0),
    (11162919, 0), (15387, 0), (7, 0)], [(0, 8985660), (0, 41977), (0, 95)], [(28558, 0), (199, 0), (1, 0)]], 3, 4⟩,
    17592186044416, 37710415,
    4874048083026407442950425505480174817589543983358318069823273604528176291725328000534913663058236927805779930614604688627880019,
    lc0⟩)))
theorem c42 : checkR job con0 false ⟨7, 9, 7, 9, 13, 17⟩ 1 30400 t42 537 21 320 31247 251 32000 = true := by decide +kernel

def t43 : CTree :=
  .sy (.sx (.sx (.sy (.leaf ⟨660, 16, 1207, 613, 16, 3162, ⟨[[(0, 13897555819765760), (0, 2478130904178529),
    (33318484253, 0), (444086, 0), (41, 0)], [(21983470725786728, 0), (0, 2457795861100), (0, 5170034), (0, 2099)],
    [(38960625859246, 0), (0, 1028916938), (7412, 0)], [(34857556176, 0), (338597, 0), (69, 0)]], 3, 4⟩,
    ⟨[[(34193254380896256, 0), (0, 2105951312595844), (10005917412, 0), (0, 432975), (0, 18)], [(0,
    27809816621423464), (84344126627, 0), (23334856, 0), (1834, 0)], [(6785288873673, 0), (0, 587853016), (0, 51793),
    (0, 3)], [(3558501640, 0), (400791, 0), (42, 0)]], 3, 4⟩, 72057594037927936, 2494225507184, 671411007734,
    ⟨[[(15186443234126, 0), (1660216379, 0), (0, 1634948), (0, 134), (1, 0)], [(2082864267, 0), (5694485, 0), (6538,
    0)], [(0, 3791849), (0, 15528), (0, 28)], [(9327, 0), (58, 0)]], 3, 4⟩, 17592186044416, 4726052,
    4781303331743300654444716630830953445345887296420631796865727496436109851344609359641914234266415179805591062416761430170401801,
    lc0⟩) (.leaf ⟨663, 16, 1246, 601, 16, 3172, ⟨[[(30662560809181184, 0), (0, 2523302001991369), (35151240416, 0),
    (547102, 0), (46, 0)], [(21418485777944789, 0), (0, 2544249276461), (0, 8725546), (0, 2335)], [(39688172286413,
    0), (0, 1054804326), (6978, 0), (0, 1)], [(36178043085, 0), (425505, 0), (80, 0)]], 3, 4⟩, ⟨[[(0,
    19370881964007424), (0, 2102871618258507), (9355100065, 0), (0, 472161), (0, 19)], [(0, 27849154001962856),
    (109553831540, 0), (26328829, 0), (2040, 0)], [(6497171011480, 0), (0, 644573165), (0, 57407), (0, 4)],
    [(3782602144, 0), (446504, 0), (46, 0)]], 3, 4⟩, 72057594037927936, 2552848669606, 696202275580,
    ⟨[[(15126287164253, 0), (1597660302, 0), (0, 1742177), (0, 213), (1, 0)], [(2073994630, 0), (5884891, 0), (7352,
    0), (1, 0)], [(0, 3851147), (0, 16995), (0, 34)], [(10239, 0), (68, 0)]], 3, 4⟩, 17592186044416, 5602121,
    4533973361121957684111014974838015495674549664613630010422507287558509858751437173417055535981046073021555106396009620325469456,
    lc0⟩)) (.sy (.leaf ⟨617, 16, 1106, 604, 16, 3199, ⟨[[(17579928962490368, 0), (0, 2366994934397498), (30348042228,
    0), (325874, 0), (34, 0)], [(23315242350320512, 0), (0, 2329759959157), (0, 3841937), (0, 1928)],
    [(39848154297193, 0), (0, 906466489), (14383, 0)], [(33897045994, 0), (263719, 0), (57, 0)]], 3, 4⟩,
    ⟨[[(30686434414608384, 0), (0, 2128028556646536), (11025362987, 0), (0, 366105), (0, 15)], [(0,
    27538611326029336), (37575759062, 0), (19441073, 0), (1574, 0)], [(7351229638496, 0), (0, 541734666), (0, 46734),
    (0, 3)], [(4108033211, 0), (432398, 0), (47, 0)]], 3, 4⟩, 72057594037927936, 2302320129008, 565562294573,
    ⟨[[(15185474975510, 0), (1762470063, 0), (0, 1509454), (0, 175), (1, 0)], [(2076744187, 0), (5525679, 0), (6182,
    0), (2, 0)], [(0, 3862487), (0, 14933), (0, 28)], [(9113, 0), (56, 0)]], 3, 4⟩, 17592186044416, 4857479,
    5282286881000272987791237349048656860563369773761712414677339914218921103354515516451246263779011384740899037118344785812439416,
    lc0⟩) (.leaf ⟨619, 16, 1140, 591, 16, 3208, ⟨[[(23922354729811968, 0), (0, 2408081295667620), (31842103110, 0),
    (410404, 0), (39, 0)], [(22825238695825838, 0), (0, 2406897977462), (0, 7072154), (0, 2148)], [(40607873278407,
    0), (0, 919276094), (15152, 0)], [(35090836862, 0), (333972, 0), (66, 0)]], 3, 4⟩, ⟨[[(21430662800293888, 0), (0,
    2123200050273588), (10480752517, 0), (0, 397417), (0, 15)], [(0, 27592053576689969), (58492563156, 0), (22004985,
    0), (1755, 0)], [(7086970106539, 0), (0, 592811101), (0, 51918), (0, 4)], [(4349367912, 0), (482472, 0), (51,
    0)]], 3, 4⟩, 72057594037927936, 2338419572992, 582976525819, ⟨[[(15125413894405, 0), (1709716390, 0), (0,
    1600224), (0, 255), (1, 0)], [(2061200751, 0), (5666546, 0), (6870, 0), (2, 0)], [(0, 3872841), (0, 16056), (0,
    33)], [(9735, 0), (64, 0)]], 3, 4⟩, 17592186044416, 5546280,
    5436784387731405046898466262653897305292303153962131999044360218196187477435316868001480535871547741938553294556222477790405390,
    lc0⟩))) (.sx (.sy (.leaf ⟨579, 16, 1014, 596, 16, 3238, ⟨[[(20609890905890816, 0), (0, 2261261627104953),
    (27702625361, 0), (225232, 0), (29, 0)], [(24612271689405821, 0), (0, 2204589998627), (0, 2154763), (0, 1727)],
    [(40562859346666, 0), (0, 804088778), (19192, 0), (1, 0)], [(32884300749, 0), (184258, 0), (43, 0)]], 3, 4⟩,
    ⟨[[(0, 19159222505168896), (0, 2153309188364910), (11906354829, 0), (0, 309181), (0, 12)], [(0,
    27226515369501547), (0, 5688772118), (15958475, 0), (1334, 0)], [(7992604696353, 0), (0, 492518041), (0, 41221),
    (0, 3)], [(4586186387, 0), (445212, 0), (49, 0)]], 3, 4⟩, 72057594037927936, 2139413108268, 469092487112,
    ⟨[[(15186613372064, 0), (1860248750, 0), (0, 1383455), (0, 179)], [(2065145158, 0), (5344656, 0), (5714, 0), (2,
    0)], [(0, 3941688), (0, 14229), (0, 26)], [(8917, 0), (51, 0)]], 3, 4⟩, 17592186044416, 4752471,
    5372915706662684286294635740877560935198909395207601164206056442991619885791055594460710607482264380102656939360637338835452530,
    lc0⟩) (.leaf ⟨580, 16, 1043, 582, 16, 3247, ⟨[[(0, 18050434922520576), (0, 2297133537423474), (28889713099, 0),
    (293584, 0), (32, 0)], [(24177029526538590, 0), (0, 2271246013740), (0, 5003899), (0, 1927)], [(41312813606524,
    0), (0, 806702169), (20856, 0), (1, 0)], [(33931617678, 0), (237168, 0), (51, 0)]], 3, 4⟩, ⟨[[(27965960360034304,
    0), (0, 2147547425609362), (11454759238, 0), (0, 333680), (0, 12)], [(0, 27300848106118098), (11412482254, 0),
    (18133858, 0), (1493, 0)], [(7756093316266, 0), (0, 537668555), (0, 45947), (0, 3)], [(4835776849, 0), (497832,
    0), (53, 0)]], 3, 4⟩, 72057594037927936, 2162224825955, 471689369896, ⟨[[(15126353051648, 0), (1816839800, 0),
    (0, 1457273), (0, 250), (1, 0)], [(2043347404, 0), (5438755, 0), (6253, 0), (3, 0)], [(0, 3909084), (0, 14994),
    (0, 30)], [(9229, 0), (58, 0)]], 3, 4⟩, 17592186044416, 5396456,
    5433633633259092665209468306989422828844942791623366661638116784483093737499997830777727280758324490366626483950413176179665654,
    lc0⟩)) (.sy (.leaf ⟨545, 16, 930, 587, 16, 3279, ⟨[[(28627599832047616, 0), (0, 2160150054192935), (25358539858,
    0), (141487, 0), (24, 0)], [(25860966413732346, 0), (0, 2083121758301), (0, 304854), (0, 1509)],
    [(41108435814734, 0), (0, 720035586), (21987, 0), (1, 0)], [(31842153512, 0), (106665, 0), (30, 0)]], 3, 4⟩,
    ⟨[[(29544373490327552, 0), (0, 2181663139181223), (12665912206, 0), (0, 261364), (0, 9)], [(0,
    26866145049884364), (0, 45281416303), (12917720, 0), (1117, 0)], [(8702126728514, 0), (0, 442436895), (0, 35467),
    (0, 3)], [(4999405964, 0), (440207, 0), (50, 0)]], 3, 4⟩, 72057594037927936, 2002116439956, 393856238965,
    ⟨[[(15185151598858, 0), (1956152576, 0), (0, 1262007), (0, 166)], [(2040511977, 0), (5148908, 0), (5215, 0), (2,
    0)], [(0, 4015430), (0, 13497), (0, 23)], [(8788, 0), (46, 0)]], 3, 4⟩, 17592186044416, 4721354,
    5255629441750445941437376436893326486312413824099071490457521904774263522288961812931742467475419555775894817279110870288846542,
    lc0⟩) (.leaf ⟨544, 16, 954, 574, 16, 3287, ⟨[[(9074732381110272, 0), (0, 2189656626461472), (26269194644, 0),
    (195958, 0), (27, 0)], [(25455353600064984, 0), (0, 2138398526475), (0, 2747501), (0, 1687)], [(41804339506844,
    0), (0, 715118532), (24257, 0), (1, 0)], [(32726929644, 0), (142606, 0), (36, 0)]], 3, 4⟩, ⟨[[(0,
    25138953010208768), (0, 2174440853641606), (12288832302, 0), (0, 279801), (0, 9)], [(0, 26951069838942479), (0,
    31510765930), (14736379, 0), (1255, 0)], [(8491412706711, 0), (0, 481261322), (0, 39697), (0, 3)], [(5246018676,
    0), (493343, 0), (54, 0)]], 3, 4⟩, 72057594037927936, 2015298357641, 383147482505, ⟨[[(15126982534382, 0),
    (1911376597, 0), (0, 1328318), (0, 223)], [(2032955354, 0), (5258677, 0), (5688, 0), (3, 0)], [(0, 4008916), (0,
    14225), (0, 27)], [(9053, 0), (52, 0)]], 3, 4⟩, 17592186044416, 5282812,
    5558235452190451963877509318405855077914599974521974366749202336315439793526775149723163633577465364996673883470054998939131531,
    lc0⟩)))) (.sx (.sx (.leaf ⟨418, 16, 817, 395, 16, 2162, ⟨[[(0, 7145431343501312), (0, 3238299769864961),
    (95865786477, 0), (3647480, 0), (550, 0)], [(12783947342551266, 0), (0, 3359160018978), (0, 37521303), (0,
    13696), (0, 1)], [(25505103998899, 0), (0, 1370754350), (14745, 0), (0, 4)], [(23963304235, 0), (728943, 0),
    (245, 0)]], 3, 4⟩, ⟨[[(0, 34441613131816960), (0, 2848522033081016), (22418579743, 0), (0, 2892352), (0, 213)],
    [(0, 18914655384547258), (208368981360, 0), (85330781, 0), (12892, 0), (1, 0)], [(4074258034404, 0), (0,
    1005684279), (0, 181395), (0, 24)], [(2825820704, 0), (708762, 0), (141, 0)]], 3, 4⟩, 72057594037927936,
    1701010972466, 541538678934, ⟨[[(15038965578437, 0), (2228212985, 0), (0, 4163922), (0, 1224), (8, 0)],
    [(3278421623, 0), (14557562, 0), (30578, 0), (13, 0)], [(0, 10108818), (0, 73632), (0, 244)], [(48606, 0), (519,
    0), (2, 0)]], 3, 4⟩, 17592186044416, 66453898,
    4418461909442809486995414818542005665941997583684618898296604623497338150847577536644401958118902396263167274007299542766694663,
    lc0⟩) (.sy (.leaf ⟨621, 16, 1175, 578, 16, 3218, ⟨[[(12307913822658560, 0), (0, 2448722147130891), (33519008978,
    0), (506887, 0), (44, 0)], [(22278532509714618, 0), (0, 2489830064201), (0, 10755597), (0, 2392)],
    [(41382918755463, 0), (0, 931694461), (15850, 0)], [(36358692675, 0), (416111, 0), (76, 0)]], 3, 4⟩,
    ⟨[[(24424815526404096, 0), (0, 2119572164914315), (9889876145, 0), (0, 429467), (0, 15)], [(0,
    27642817690369877), (82214658363, 0), (24865453, 0), (1948, 0)], [(6796963655740, 0), (0, 649685392), (0, 57615),
    (0, 4)], [(4619016399, 0), (537003, 0), (55, 0)]], 3, 4⟩, 72057594037927936, 2371848201385, 598256748405,
    ⟨[[(15066086608553, 0), (1657169943, 0), (0, 1698086), (0, 357), (1, 0)], [(2044157350, 0), (5819459, 0), (7677,
    0), (4, 0)], [(0, 3899481), (0, 17402), (0, 39)], [(10571, 0), (75, 0)]], 3, 4⟩, 17592186044416, 6559772,
    5209432837659622149772531494701512486688310440774712839581182606965035853897482687930523370300039293661226484689373919451326689,
    lc0⟩) (.leaf ⟨624, 16, 1213, 565, 16, 3228, ⟨[[(0, 16529089216086016), (0, 2492754555277294), (35461086351, 0),
    (617549, 0), (49, 0)], [(21705596315329990, 0), (0, 2583415776346), (0, 14969309), (0, 2667)], [(42242560047892,
    0), (0, 945323380), (16492, 0)], [(37770615614, 0), (512431, 0), (87, 0)]], 3, 4⟩, ⟨[[(25788294574882816, 0), (0,
    2116531981040112), (9248516365, 0), (0, 461715), (0, 15)], [(0, 27680779194154953), (109039607417, 0), (28034277,
    0), (2153, 0)], [(6475867145479, 0), (0, 712729645), (0, 63860), (0, 4)], [(4918042833, 0), (596244, 0), (60,
    0)]], 3, 4⟩, 72057594037927936, 2402761344990, 618043759441, ⟨[[(15007794180537, 0), (1604646682, 0), (0,
    1805420), (0, 486), (1, 0)], [(2023985826, 0), (5984004, 0), (8618, 0), (5, 0)], [(0, 3940289), (0, 18990), (0,
    47)], [(11624, 0), (87, 0)]], 3, 4⟩, 17592186044416, 7622824,
    4498233008697255391906547619641439554405449321997181654647891621059945374463860860798525938307513087420720898377964300882416414,
    lc0⟩))) (.sx (.sy (.leaf ⟨580, 16, 1073, 569, 16, 3256, ⟨[[(4742190389641216, 0), (0, 2333121341729377),
    (30227231072, 0), (371711, 0), (36, 0)], [(23697924345540194, 0), (0, 2343282663498), (0, 8257218), (0, 2149)],
    [(42089990154461, 0), (0, 807803150), (22566, 0), (1, 0)], [(35043764603, 0), (299646, 0), (59, 0)]], 3, 4⟩,
    ⟨[[(2828745668435968, 0), (0, 2142226481525831), (10964681473, 0), (0, 358370), (0, 12)], [(0,
    27365998360640640), (30873743394, 0), (20561356, 0), (1661, 0)], [(7494907920871, 0), (0, 587916103), (0, 51126),
    (0, 4)], [(5113606659, 0), (555023, 0), (58, 0)]], 3, 4⟩, 72057594037927936, 2178850723127, 477003439768,
    ⟨[[(15066686156668, 0), (1765021608, 0), (0, 1544681), (0, 339), (1, 0)], [(2034010945, 0), (5586777, 0), (6962,
    0), (4, 0)], [(0, 3931276), (0, 16183), (0, 36)], [(9929, 0), (68, 0)]], 3, 4⟩, 17592186044416, 6420052,
    5685729465646991375311248627145955271280300327676317350124889438812418005510372527030495177205584089198695419723163241091601192,
    lc0⟩) (.leaf ⟨581, 16, 1105, 556, 16, 3265, ⟨[[(0, 19033285762727936), (0, 2371139945423182), (31763246425, 0),
    (460995, 0), (41, 0)], [(23190827806963206, 0), (0, 2423422266968), (0, 11973200), (0, 2397)], [(42933575925851,
    0), (0, 808004054), (24345, 0), (1, 0)], [(36259683561, 0), (373198, 0), (68, 0)]], 3, 4⟩, ⟨[[(0,
    22729001073442816), (0, 2137386529759265), (10436051421, 0), (0, 382820), (0, 12)], [(0, 27420688097907901),
    (52961665784, 0), (23254748, 0), (1837, 0)], [(7206300686129, 0), (0, 643752204), (0, 56805), (0, 4)],
    [(5422149855, 0), (617197, 0), (63, 0)]], 3, 4⟩, 72057594037927936, 2191096608171, 479844127497,
    ⟨[[(15008817891572, 0), (1715639540, 0), (0, 1636834), (0, 449), (1, 0)], [(2018680222, 0), (5731450, 0), (7759,
    0), (6, 0)], [(0, 3952974), (0, 17517), (0, 43)], [(10797, 0), (79, 0)]], 3, 4⟩, 17592186044416, 7549416,
    5584013662864147616595891181679257928558469188582527095217411972123074281690901088652324261181083830106813987711611992404619436,
    lc0⟩)) (.sy (.leaf ⟨543, 16, 980, 560, 16, 3296, ⟨[[(27367753335881728, 0), (0, 2222073448950339), (27330742951,
    0), (258543, 0), (30, 0)], [(25045437988742729, 0), (0, 2200859065199), (0, 5545213), (0, 1885)],
    [(42581314833687, 0), (0, 708708171), (26678, 0), (1, 0)], [(33702085012, 0), (186020, 0), (42, 0)]], 3, 4⟩,
    ⟨[[(5358722266046464, 0), (0, 2168239409167488), (11886625883, 0), (0, 298185), (0, 9)], [(0, 27036837777419468),
    (0, 15774619247), (16777578, 0), (1400, 0)], [(8262003812989, 0), (0, 524789927), (0, 44347), (0, 3)],
    [(5522731721, 0), (551283, 0), (59, 0)]], 3, 4⟩, 72057594037927936, 2022687363643, 375287226978,
    ⟨[[(15065965764270, 0), (1865660501, 0), (0, 1401888), (0, 298)], [(2020811420, 0), (5373111, 0), (6253, 0), (4,
    0)], [(0, 3998689), (0, 15093), (0, 32)], [(9456, 0), (60, 0)]], 3, 4⟩, 17592186044416, 6128165,
    5535344437820110790136257692291654676456637785444433231456464376394599354474943447620327534383091154231432222624857508347823563,
    lc0⟩) (.leaf ⟨543, 16, 1007, 546, 16, 3305, ⟨[[(0, 32982632591278080), (0, 2254881093181597), (28531474532, 0),
    (329854, 0), (33, 0)], [(24598508714844102, 0), (0, 2268721816483), (0, 8740360), (0, 2105)], [(43395961129481,
    0), (0, 699797023), (29238, 0), (1, 0)], [(34737994454, 0), (237694, 0), (49, 0)]], 3, 4⟩, ⟨[[(35901809631698944,
    0), (0, 2162423594970376), (11455869129, 0), (0, 316012), (0, 8)], [(0, 27114182832104073), (2170983121, 0),
    (19047622, 0), (1551, 0)], [(8008784742128, 0), (0, 573332124), (0, 49449), (0, 3)], [(5830545569, 0), (614311,
    0), (64, 0)]], 3, 4⟩, 72057594037927936, 2024368387232, 367369222948, ⟨[[(15007678599264, 0), (1825252995, 0),
    (0, 1474758), (0, 385)], [(1999707461, 0), (5465997, 0), (6842, 0), (5, 0)], [(0, 3969767), (0, 15954), (0, 37)],
    [(9916, 0), (68, 0)]], 3, 4⟩, 17592186044416, 7064296,
    5527116664837588022528535772655060650345873026958612190198309712893894018624151532323408890828377308606252375203344981900749204,
    lc0⟩))))
theorem c43 : checkR job con0 false ⟨7, 9, 7, 9, 13, 17⟩ 1 30400 t43 537 21 320 31749 251 32000 = true := by decide +kernel

def t44 : CTree :=
  .sx (.sy (.sx (.leaf ⟨359, 16, 540, 417, 16, 2186, ⟨[[(0, 35467198754123776), (0, 2714842671504072), (58770504213,
    0), (0, 189308), (128, 0)], [(19314186594194310, 0), (0, 2509205858947), (18458305, 0), (0, 4601)],
    [(27027121705753, 0), (0, 911955158), (40433, 0), (7, 0)], [(19472353165, 0), (0, 1036), (12, 0)]], 3, 4⟩,
    ⟨[[(14823331374247936, 0), (0, 2976550866956146), (37837749799, 0), (0, 940956), (0, 59)], [(0,
    17293511170739468), (0, 144999710017), (17061017, 0), (2892, 0), (1, 0)], [(6636347918719, 0), (0, 406340658),
    (0, 50410), (0, 9)], [(3130776079, 0), (355231, 0), (97, 0)]], 3, 4⟩, 72057594037927936, 1306125969191,
    303523423346, ⟨[[(15402139847360, 0), (3299778534, 0), (0, 2199110), (0, 125), (1, 0)], [(2946689939, 0),
    (10167048, 0), (12132, 0), (3, 0)], [(0, 8695660), (0, 35898), (0, 65)], [(26928, 0), (150, 0)]], 3, 4⟩,
    17592186044416, 36061270,
    2731103642664034360958958530885730367828085573418600921189517525069143675495063480788164275705866817343560143805155362210141898,
    lc0⟩) (.leaf ⟨346, 16, 504, 411, 16, 2206, ⟨[[(0, 17953900038656000), (0, 2633716116241709), (55643014031, 0),
    (0, 345394), (100, 0)], [(20243438416030178, 0), (0, 2413481763403), (20417346, 0), (0, 3723)], [(27578262491606,
    0), (0, 853168787), (37747, 0), (7, 0)], [(19178679771, 0), (0, 29715), (0, 11)]], 3, 4⟩, ⟨[[(1296513176526848,
    0), (0, 3010626912017689), (38824441794, 0), (0, 842175), (0, 39)], [(0, 16872098861808091), (0, 178941984238),
    (13450473, 0), (2213, 0)], [(7107893189764, 0), (0, 367368935), (0, 38938), (0, 8)], [(3358312049, 0), (317390,
    0), (91, 0)]], 3, 4⟩, 72057594037927936, 1248191721433, 283377557019, ⟨[[(15402104330973, 0), (3423009067, 0),
    (0, 2024943), (0, 123), (1, 0)], [(2853482588, 0), (9741117, 0), (11233, 0), (3, 0)], [(0, 8632902), (0, 34295),
    (0, 59)], [(27037, 0), (140, 0)]], 3, 4⟩, 17592186044416, 41838013,
    1874863554917466834590052730522854831835444605747283092915505569578584796669385709987408333124607557198567897744795234260042758,
    lc0⟩)) (.sx (.leaf ⟨353, 16, 561, 400, 16, 2203, ⟨[[(1022783720824832, 0), (0, 2759196293723512), (60979756475,
    0), (107937, 0), (171, 0)], [(18760881773972910, 0), (0, 2591413080081), (11175487, 0), (0, 5864), (0, 1)],
    [(27614031062220, 0), (0, 900017753), (52447, 0), (7, 0)], [(20233599114, 0), (19966, 0), (30, 0)]], 3, 4⟩,
    ⟨[[(0, 22769272539365376), (0, 2962162367775949), (36609785817, 0), (0, 1075454), (0, 66)], [(0,
    17496619581032942), (0, 126393668948), (22390018, 0), (4005, 0), (1, 0)], [(6468390028284, 0), (0, 467758446),
    (0, 65688), (0, 11)], [(3360761269, 0), (464134, 0), (114, 0)]], 3, 4⟩, 72057594037927936, 1328961020121,
    280816139817, ⟨[[(15279049440949, 0), (3163912007, 0), (0, 2406320), (0, 301), (1, 0)], [(2968396889, 0),
    (10634734, 0), (14021, 0), (6, 0)], [(0, 8877758), (0, 39309), (0, 83)], [(27892, 0), (176, 0), (1, 0)]], 3, 4⟩,
    17592186044416, 40996392,
    3777659704926211974426853218898134523900310967947604066648930914299324334952117409549175724367019325279268855465849704555450273,
    lc0⟩) (.leaf ⟨340, 16, 523, 393, 16, 2222, ⟨[[(0, 3846038488764416), (0, 2675245590833110), (57374666420, 0), (0,
    116643), (137, 0)], [(19754161759903229, 0), (0, 2486360266633), (14630222, 0), (0, 4861), (0, 1)],
    [(28184329013795, 0), (0, 840164269), (50855, 0), (8, 0)], [(19884520044, 0), (0, 35180), (3, 0)]], 3, 4⟩,
    ⟨[[(592112292458496, 0), (0, 2993862533910623), (37765588428, 0), (0, 933363), (0, 44)], [(0, 17081225994271101),
    (0, 164715824613), (17617539, 0), (3190, 0)], [(6962770186247, 0), (0, 415694845), (0, 52124), (0, 9)],
    [(3567680196, 0), (420115, 0), (108, 0)]], 3, 4⟩, 72057594037927936, 1279216866777, 261551505503,
    ⟨[[(15278359706031, 0), (3301383049, 0), (0, 2206500), (0, 270), (1, 0)], [(2865534993, 0), (10133071, 0),
    (12803, 0), (5, 0)], [(0, 8778516), (0, 37056), (0, 72)], [(27681, 0), (159, 0)]], 3, 4⟩, 17592186044416,
    46297767,
    2172456135872866427030681620640604098461372116422280410414659212247629571966309921373222826386873615627734345137353794465299599,
    lc0⟩))) (.sy (.sx (.leaf ⟨335, 16, 471, 405, 16, 2227, ⟨[[(0, 15229135221391360), (0, 2557408470589103),
    (52862182683, 0), (0, 456126), (76, 0)], [(21179406438762731, 0), (0, 2322612747630), (21952521, 0), (0, 2858)],
    [(28091304876691, 0), (0, 802025393), (32663, 0), (8, 0)], [(18887037902, 0), (0, 45100), (0, 31)]], 3, 4⟩,
    ⟨[[(13118983558209536, 0), (0, 3047505019385917), (39701685921, 0), (0, 769468), (0, 22)], [(0,
    16411694238040299), (0, 210188063930), (10751480, 0), (1627, 0)], [(7614453296778, 0), (0, 333586461), (0,
    28174), (0, 7)], [(3574044515, 0), (270174, 0), (84, 0)]], 3, 4⟩, 72057594037927936, 1191046085471, 265450520121,
    ⟨[[(15401462588053, 0), (3542844281, 0), (0, 1854691), (0, 122), (1, 0)], [(2742802175, 0), (9277624, 0), (10338,
    0), (2, 0)], [(0, 8489132), (0, 32488), (0, 53)], [(26829, 0), (132, 0)]], 3, 4⟩, 17592186044416, 48575192,
    1303750796793574521105452289630301856344759385771817720137419110278624307945831642389593164984302050071993824446043674854577096,
    lc0⟩) (.leaf ⟨325, 16, 440, 400, 16, 2249, ⟨[[(0, 3832686693892096), (0, 2481540642906061), (50295547432, 0), (0,
    524846), (55, 0)], [(22084786095678153, 0), (0, 2232914500227), (22881386, 0), (0, 2022)], [(28523491200115, 0),
    (0, 754860486), (25594, 0), (8, 0)], [(18567269254, 0), (0, 44353), (0, 49)]], 3, 4⟩, ⟨[[(0, 20433578562654208),
    (0, 3087100759667509), (40505841663, 0), (0, 719234), (0, 6)], [(0, 15908476040798997), (0, 239215645419),
    (8900536, 0), (1127, 0)], [(8155555199695, 0), (0, 305985872), (0, 18351), (0, 6)], [(3784350569, 0), (217057,
    0), (75, 0)]], 3, 4⟩, 72057594037927936, 1141352471874, 254354226471, ⟨[[(15402746586245, 0), (3652094714, 0),
    (0, 1692967), (0, 122), (1, 0)], [(2634845051, 0), (8839001, 0), (9511, 0), (2, 0)], [(0, 8353922), (0, 30798),
    (0, 48)], [(26562, 0), (125, 0)]], 3, 4⟩, 17592186044416, 56885049,
    1318316700234954256877089586314803887330467382186532579506422134157616358390828974323449329790562122586054728273224829959401577,
    lc0⟩)) (.sx (.leaf ⟨329, 16, 488, 387, 16, 2243, ⟨[[(0, 28572203221602304), (0, 2595038687117129), (54191863012,
    0), (0, 285733), (108, 0)], [(20741137937390333, 0), (0, 2386071463207), (17608411, 0), (0, 3874)],
    [(28697631408403, 0), (0, 790792996), (46258, 0), (8, 0)], [(19538004349, 0), (0, 73905), (0, 22)]], 3, 4⟩,
    ⟨[[(0, 10942331384635392), (0, 3029850660496714), (38784559265, 0), (0, 822754), (0, 25)], [(0,
    16632915054280460), (0, 199377799779), (13926921, 0), (2487, 0)], [(7492459338524, 0), (0, 369850075), (0,
    39424), (0, 8)], [(3758880286, 0), (364481, 0), (100, 0)]], 3, 4⟩, 72057594037927936, 1233104454980,
    235604298534, ⟨[[(15279980212181, 0), (3430525133, 0), (0, 2010934), (0, 242), (1, 0)], [(2752918107, 0),
    (9613869, 0), (11650, 0), (4, 0)], [(0, 8630694), (0, 34845), (0, 63)], [(27499, 0), (146, 0)]], 3, 4⟩,
    17592186044416, 53308724,
    1526646959828204313100225997663804812692627551060858660415476323219474952433025793851935397012013221481544027383277050411466396,
    lc0⟩) (.leaf ⟨318, 16, 455, 381, 16, 2265, ⟨[[(23645631933628416, 0), (0, 2514298948607267), (51290958617, 0),
    (0, 403864), (82, 0)], [(21684212691243956, 0), (0, 2287067034058), (19893926, 0), (0, 2923)], [(29111753859426,
    0), (0, 747675656), (39167, 0), (9, 0)], [(19165176181, 0), (0, 92540), (0, 43)]], 3, 4⟩, ⟨[[(3008750108635136,
    0), (0, 3068657081999390), (39692662454, 0), (0, 738864), (0, 8)], [(0, 16140168101597708), (0, 230873709420),
    (11232320, 0), (1886, 0)], [(8053471339423, 0), (0, 331269909), (0, 27841), (0, 7)], [(3941180718, 0), (301193,
    0), (89, 0)]], 3, 4⟩, 72057594037927936, 1178053790654, 223342572739, ⟨[[(15277447840780, 0), (3543315826, 0),
    (0, 1836416), (0, 226), (1, 0)], [(2650606073, 0), (9169999, 0), (10728, 0), (3, 0)], [(0, 8538427), (0, 33165),
    (0, 56)], [(27626, 0), (138, 0)]], 3, 4⟩, 17592186044416, 63742117,
    2620748276441627853991327409994940808826866416579286938261821249619848153830281648642955068465421094451422524847394280991588075,
    lc0⟩)))
theorem c44 : checkR job con0 false ⟨7, 9, 7, 9, 13, 17⟩ 1 30400 t44 579 21 320 31247 251 32000 = true := by decide +kernel

def t45 : CTree :=
  .sx (.sy (.sx (.leaf ⟨347, 16, 583, 382, 16, 2219, ⟨[[(7472536586792960, 0), (0, 2803595718031613), (63828989942,
    0), (509898, 0), (219, 0)], [(18146815382846056, 0), (0, 2686291883377), (1506852, 0), (0, 7354), (0, 1)],
    [(28242067562000, 0), (0, 875050187), (65593, 0), (7, 0)], [(21047042483, 0), (62237, 0), (52, 0)]], 3, 4⟩,
    ⟨[[(0, 5215176538562560), (0, 2947505897270207), (35142242625, 0), (0, 1219052), (0, 67)], [(0,
    17681374082046123), (0, 101321901961), (29522234, 0), (5239, 0), (1, 0)], [(6260737166006, 0), (0, 546308060),
    (0, 84074), (0, 13)], [(3650546118, 0), (593155, 0), (136, 0)]], 3, 4⟩, 72057594037927936, 1340109133854,
    255438402778, ⟨[[(15156637187442, 0), (3034900510, 0), (0, 2638356), (0, 557), (1, 0)], [(2975489558, 0),
    (11110415, 0), (16361, 0), (11, 0)], [(0, 8988572), (0, 43202), (0, 108)], [(28923, 0), (213, 0), (1, 0)]], 3,
    4⟩, 17592186044416, 47207237,
    4976377154138431221663851153381090738645752524359292278364289474233865463225924763916556854438405846128885607484888523875208791,
    lc0⟩) (.leaf ⟨334, 16, 543, 375, 16, 2238, ⟨[[(0, 14085146716954624), (0, 2717757513878882), (59619391461, 0),
    (200471, 0), (178, 0)], [(19216849938628032, 0), (0, 2570287654250), (6739212, 0), (0, 6198), (0, 1)],
    [(28838580789218, 0), (0, 813032318), (65331, 0), (8, 0)], [(20628637216, 0), (0, 25705), (19, 0)]], 3, 4⟩,
    ⟨[[(0, 2729622419664896), (0, 2977964188943582), (36554112970, 0), (0, 1029614), (0, 44)], [(0,
    17282595325092395), (0, 145398135670), (23362605, 0), (4260, 0), (1, 0)], [(6788247372880, 0), (0, 478972885),
    (0, 68059), (0, 11)], [(3834836261, 0), (542091, 0), (128, 0)]], 3, 4⟩, 72057594037927936, 1295281956052,
    230825465813, ⟨[[(15157579744201, 0), (3181080689, 0), (0, 2406298), (0, 471), (1, 0)], [(2872718162, 0),
    (10539589, 0), (14669, 0), (9, 0)], [(0, 8877006), (0, 40095), (0, 90)], [(28137, 0), (184, 0), (1, 0)]], 3, 4⟩,
    17592186044416, 52034633,
    3412044519937586739287606266495604167481159405798517074563600251633492109339599271597582460475227494417562756207556700927562384,
    lc0⟩)) (.sx (.sy (.leaf ⟨511, 16, 896, 552, 16, 3339, ⟨[[(9830586946088960, 0), (0, 2117254998109779),
    (24820836343, 0), (166137, 0), (24, 0)], [(26334767766332940, 0), (0, 2065895175429), (0, 2837906), (0, 1616)],
    [(42913191547829, 0), (0, 632001497), (28495, 0), (1, 0)], [(32395222251, 0), (82564, 0), (26, 0)]], 3, 4⟩,
    ⟨[[(0, 26847936432496640), (0, 2198094584516356), (12680681633, 0), (0, 247913), (0, 6)], [(0,
    26656392151670683), (0, 57728234460), (13534762, 0), (1167, 0)], [(9092218101437, 0), (0, 463002088), (0, 37534),
    (0, 3)], [(5859253840, 0), (527924, 0), (58, 0)]], 3, 4⟩, 72057594037927936, 1903189227133, 291212129343,
    ⟨[[(15067410745108, 0), (1961353627, 0), (0, 1265348), (0, 246)], [(1998215286, 0), (5154358, 0), (5557, 0), (3,
    0)], [(0, 4077382), (0, 14085), (0, 27)], [(9155, 0), (52, 0)]], 3, 4⟩, 17592186044416, 5943121,
    5312794116090114711536410779829828340108951120073830824473336832807313246105713261854495637215019726635614697987708591328285988,
    lc0⟩) (.leaf ⟨509, 16, 919, 538, 16, 3347, ⟨[[(15684473375105024, 0), (0, 2145902680925723), (25753314556, 0),
    (222563, 0), (27, 0)], [(25946123147424884, 0), (0, 2123138787363), (0, 5519349), (0, 1809)], [(43696907461201,
    0), (0, 617724098), (31541, 0), (2, 0)], [(33276507805, 0), (114163, 0), (32, 0)]], 3, 4⟩, ⟨[[(0,
    25721877601820672), (0, 2190789981718287), (12328041074, 0), (0, 259977), (0, 5)], [(0, 26745737062963959), (0,
    43329571010), (15422427, 0), (1295, 0)], [(8871174274605, 0), (0, 504070387), (0, 42042), (0, 3)], [(6153893359,
    0), (589562, 0), (63, 0)]], 3, 4⟩, 72057594037927936, 1898717832044, 270811763724, ⟨[[(15007957242593, 0),
    (1918717151, 0), (0, 1332978), (0, 317)], [(1989510550, 0), (5264050, 0), (6075, 0), (5, 0)], [(0, 4066690), (0,
    14880), (0, 32)], [(9508, 0), (59, 0)]], 3, 4⟩, 17592186044416, 6884366,
    5506930898546661253128816401791928265973320021733616754586957126000443541821159197891081940938919179491241623312546341187699477,
    lc0⟩)) (.leaf ⟨327, 16, 564, 357, 16, 2254, ⟨[[(19116546171703296, 0), (0, 2760435292904453), (62538323149, 0),
    (619215, 0), (224, 0)], [(18620766575817810, 0), (0, 2667860105820), (0, 3692226), (0, 7792), (0, 1)],
    [(29548188792294, 0), (0, 769563763), (81489, 0), (9, 0)], [(21419419093, 0), (1762, 0), (37, 0)]], 3, 4⟩, ⟨[[(0,
    9010502372954112), (0, 2963097116611983), (35190470621, 0), (0, 1118319), (0, 36)], [(0, 17473157444420757), (0,
    119293360607), (30821340, 0), (5400, 0), (1, 0)], [(6575833976876, 0), (0, 560364149), (0, 87339), (0, 14)],
    [(4170740078, 0), (686883, 0), (152, 0)]], 3, 4⟩, 72057594037927936, 1286894293421, 197482704762,
    ⟨[[(15037034849922, 0), (3051996231, 0), (0, 2642597), (0, 767), (1, 0)], [(2890660399, 0), (11044716, 0),
    (17147, 0), (16, 0)], [(0, 9010499), (0, 44243), (0, 119)], [(29314, 0), (226, 0), (1, 0)]], 3, 4⟩,
    17592186044416, 62066985,
    4825613117489810758375291944260955477852967017438766846234308229323633056965729115731596027804766096574878406698281541377596700,
    lc0⟩))) (.sy (.sx (.leaf ⟨322, 16, 506, 368, 16, 2259, ⟨[[(12583796276916224, 0), (0, 2634505438580857),
    (55928855536, 0), (0, 41086), (143, 0)], [(20268251561290914, 0), (0, 2459044086264), (11436788, 0), (0, 5061),
    (0, 1)], [(29357726033684, 0), (0, 765155434), (61305, 0), (9, 0)], [(20215508814, 0), (0, 93373), (0, 11)]], 3,
    4⟩, ⟨[[(34897755668840448, 0), (0, 3012885117227667), (37775768523, 0), (0, 877787), (0, 23)], [(0,
    16848484417799820), (0, 184597628861), (18477715, 0), (3414, 0)], [(7347838891108, 0), (0, 418856151), (0,
    53071), (0, 10)], [(3996690691, 0), (476502, 0), (118, 0)]], 3, 4⟩, 72057594037927936, 1253271177751,
    206268842906, ⟨[[(15154996101640, 0), (3313321011, 0), (0, 2194148), (0, 407), (1, 0)], [(2767488815, 0),
    (10010923, 0), (13289, 0), (7, 0)], [(0, 8779610), (0, 37672), (0, 77)], [(27992, 0), (164, 0), (1, 0)]], 3, 4⟩,
    17592186044416, 60472673,
    1847054408878525926682105557534551164218752762171678596020489157142460504019157078814306273156969791091980287037743512978345471,
    lc0⟩) (.leaf ⟨312, 16, 471, 362, 16, 2281, ⟨[[(0, 30628667060797440), (0, 2549676617302024), (52606808230, 0),
    (0, 220711), (112, 0)], [(21263031752907998, 0), (0, 2349334416795), (15339578, 0), (0, 3967)], [(29758280701027,
    0), (0, 726478654), (54147, 0), (9, 0)], [(19780591686, 0), (0, 136033), (0, 36)]], 3, 4⟩, ⟨[[(24690451395960832,
    0), (0, 3050767536136321), (38841341192, 0), (0, 757945), (0, 5)], [(0, 16367784240593079), (0, 219514260850),
    (14763731, 0), (2688, 0)], [(7934912410822, 0), (0, 367291483), (0, 39413), (0, 8)], [(4145176644, 0), (401130,
    0), (106, 0)]], 3, 4⟩, 72057594037927936, 1215296209571, 188955182501, ⟨[[(15157195021374, 0), (3444041898, 0),
    (0, 1982518), (0, 352), (1, 0)], [(2647605821, 0), (9447105, 0), (11980, 0), (5, 0)], [(0, 8614076), (0, 35218),
    (0, 66)], [(27868, 0), (150, 0)]], 3, 4⟩, 17592186044416, 70277597,
    3055952731702208183811725946992827618577997674366868625520053666798694176228956855111992428533666957660591356133817571778999445,
    lc0⟩)) (.sx (.leaf ⟨315, 16, 525, 350, 16, 2275, ⟨[[(31147608768077824, 0), (0, 2675121608971335), (58205286448,
    0), (287854, 0), (181, 0)], [(19750808766816930, 0), (0, 2543733039016), (3060519, 0), (0, 6469), (0, 1)],
    [(30078793911919, 0), (0, 722794225), (78146, 0), (10, 0)], [(20924180549, 0), (0, 101827), (1, 0)]], 3, 4⟩,
    ⟨[[(6290117890220032, 0), (0, 2996708411131245), (36680524516, 0), (0, 922930), (0, 14)], [(0,
    17055988867723822), (0, 164386487473), (24493279, 0), (4378, 0)], [(7173360705707, 0), (0, 483360471), (0,
    69639), (0, 12)], [(4297547871, 0), (609482, 0), (140, 0)]], 3, 4⟩, 72057594037927936, 1254891730176,
    169117276330, ⟨[[(15036145142396, 0), (3192882898, 0), (0, 2396953), (0, 630), (1, 0)], [(2786723257, 0),
    (10448647, 0), (15231, 0), (12, 0)], [(0, 8907586), (0, 40908), (0, 96)], [(28455, 0), (191, 0), (1, 0)]], 3, 4⟩,
    17592186044416, 69445341,
    2866420084533602336863591612661275291807466053490579223206273247054855548150033549811587336931430788076598955486015210024507704,
    lc0⟩) (.leaf ⟨305, 16, 488, 344, 16, 2297, ⟨[[(0, 28300465465139200), (0, 2587090321422986), (54350346193, 0),
    (31842, 0), (144, 0)], [(20812005983071921, 0), (0, 2421546876599), (8899344, 0), (0, 5200), (0, 1)],
    [(30469865870108, 0), (0, 689023542), (70875, 0), (10, 0)], [(20415059567, 0), (0, 174337), (0, 29)]], 3, 4⟩,
    ⟨[[(0, 27596170773753856), (0, 3033475596732600), (37960041854, 0), (0, 766092), (3, 0)], [(0,
    16589450337757224), (0, 203879791953), (19543208, 0), (3498, 0)], [(7793788209846, 0), (0, 416443961), (0,
    53529), (0, 10)], [(4405309933, 0), (519720, 0), (125, 0)]], 3, 4⟩, 72057594037927936, 1230068235446,
    144472316593, ⟨[[(15040167351559, 0), (3332140515, 0), (0, 2155727), (0, 518), (1, 0)], [(2667937267, 0),
    (9828125, 0), (13538, 0), (8, 0)], [(0, 8758824), (0, 37926), (0, 78)], [(28162, 0), (167, 0), (1, 0)]], 3, 4⟩,
    17592186044416, 80381897,
    3361703871356111812979265203761803665784180176824842428804297844265565786427527197542678375746839863760973691123598426749814708,
    lc0⟩)))
theorem c45 : checkR job con0 false ⟨7, 9, 7, 9, 13, 17⟩ 1 30400 t45 579 21 320 31749 251 32000 = true := by decide +kernel

end PyX.Kron.T3a
