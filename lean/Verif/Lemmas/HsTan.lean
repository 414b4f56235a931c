import Verif.Lemmas.HsCells

/-!
# Tangents from 273.15 K to 590 K
-/

namespace PyX.Kron

def tan0 : Tan :=
   ⟨27315, 15723457, 15723460, 10061, 22544, 400079826, ⟨70939134906, 1, 10000000000, 2595962956, 1, 10000000000⟩, 0, ⟨70939134906, 1, 10000000000, 2595962956, 1, 10000000000⟩,
      [352521, 353977, 355439, 292015, 293221, 240898, 241893, 198729, 160831, 108666, 24148]⟩

def tans0 : List Tan :=
  [⟨27657, 16716940, 16716943, 10077, 5267220, 400008943, ⟨70939038112, 1, 10000000000, 2638947498, 1, 10000000000⟩, 11330279, ⟨709390381, 969, 100000000, 2638947498, 1, 10000000000⟩,
      [349358, 350802, 352251, 289395, 290591, 238738, 239724, 196947, 159384, 107688, 23931]⟩,
   ⟨28001, 17749347, 17749350, 10099, 10464838, 399800485, ⟨70938905021, 1, 10000000000, 2682530637, 1, 10000000000⟩, 22592091, ⟨709389050, 1332, 100000000, 2682530637, 1, 10000000000⟩,
      [347510, 348946, 350388, 287865, 289054, 237475, 238456, 195906, 158542, 107120, 23805]⟩,
   ⟨28348, 18824065, 18824068, 10125, 15634972, 399457881, ⟨70938747731, 1, 10000000000, 2726850951, 1, 10000000000⟩, 33794351, ⟨709387477, 1574, 100000000, 2726850951, 1, 10000000000⟩,
      [344817, 346241, 347671, 285633, 286813, 287998, 236608, 194388, 157221, 77640]⟩,
   ⟨28697, 19938329, 19938332, 10157, 20765032, 398986002, ⟨70938554143, 1, 10000000000, 2771792901, 1, 10000000000⟩, 44909779, ⟨709385541, 1937, 100000000, 2771792901, 1, 10000000000⟩,
      [342261, 343675, 345095, 346521, 284688, 233888, 234855, 192947, 148671, 73418]⟩,
   ⟨29048, 21092279, 21092282, 10197, 25857070, 398389104, ⟨70938312159, 1, 10000000000, 2817367397, 1, 10000000000⟩, 55942828, ⟨709383121, 2421, 100000000, 2817367397, 1, 10000000000⟩,
      [339816, 341220, 342630, 344046, 282655, 283823, 233177, 191569, 138187, 30709]⟩,
   ⟨29401, 22286003, 22286006, 10246, 30912734, 397671253, ⟨70938015728, 1, 10000000000, 2863585622, 1, 10000000000⟩, 66897059, ⟨709380157, 2965, 100000000, 2863585622, 1, 10000000000⟩,
      [413608, 339804, 341208, 342618, 281482, 231255, 232210, 183571, 124029, 27563]⟩,
   ⟨29757, 23523063, 23523066, 10306, 35947430, 396833851, ⟨70937652752, 1, 10000000000, 2910591636, 1, 10000000000⟩, 77805865, ⟨709376527, 3631, 100000000, 2910591636, 1, 10000000000⟩,
      [410798, 337496, 338890, 340290, 279569, 280723, 230631, 154369, 127478]⟩,
   ⟨30115, 24800114, 24800117, 10378, 40947918, 395882558, ⟨70937217180, 1, 10000000000, 2958266875, 1, 10000000000⟩, 88640546, ⟨709372171, 4357, 100000000, 2958266875, 1, 10000000000⟩,
      [408073, 409759, 336642, 338033, 277715, 228159, 229101, 171484, 84685]⟩,
   ⟨30475, 26117098, 26117101, 10465, 45915220, 394821030, ⟨70936690865, 1, 10000000000, 3006623450, 1, 10000000000⟩, 99403324, ⟨709366908, 5264, 100000000, 3006623450, 1, 10000000000⟩,
      [405422, 407097, 334455, 335836, 275910, 226677, 227613, 170374, 84136]⟩,
   ⟨30837, 27473908, 27473911, 10569, 50850260, 393652782, ⟨70936061705, 1, 10000000000, 3055673787, 1, 10000000000⟩, 110096199, ⟨709360617, 6292, 100000000, 3055673787, 1, 10000000000⟩,
      [402841, 404505, 332325, 333697, 274152, 275285, 185042, 163317, 80651]⟩,
   ⟨31201, 28870394, 28870397, 10694, 55753890, 392381210, ⟨70935305505, 1, 10000000000, 3105430628, 1, 10000000000⟩, 120721021, ⟨709353055, 7563, 100000000, 3105430628, 1, 10000000000⟩,
      [400327, 401980, 330251, 331615, 272442, 273568, 183888, 162296, 80147]⟩,
   ⟨31567, 30306361, 30306364, 10843, 60626918, 391009580, ⟨70934404113, 1, 10000000000, 3155907046, 1, 10000000000⟩, 131279530, ⟨709344041, 9015, 100000000, 3155907046, 1, 10000000000⟩,
      [397876, 399520, 328230, 329586, 270775, 271894, 223377, 134109, 66227]⟩,
   ⟨31935, 31781575, 31781578, 11020, 65470106, 389541046, ⟨70933333333, 1, 10000000000, 3207116454, 1, 10000000000⟩, 141773388, ⟨709333333, 10709, 100000000, 3207116454, 1, 10000000000⟩,
      [395486, 397120, 398761, 327606, 269148, 221121, 181664, 144688, 71452]⟩,
   ⟨32305, 33295758, 33295761, 11228, 70284198, 387978640, ⟨70932075015, 1, 10000000000, 3259072615, 1, 10000000000⟩, 152204201, ⟨709320750, 12584, 100000000, 3259072615, 1, 10000000000⟩,
      [392103, 393723, 395349, 324803, 266845, 267948, 189336, 127925, 28428]⟩,
   ⟨32676, 34844383, 34844386, 11474, 75057118, 386329872, ⟨70930586811, 1, 10000000000, 3311647293, 1, 10000000000⟩, 162545811, ⟨709305868, 14883, 100000000, 3311647293, 1, 10000000000⟩,
      [389853, 391464, 393081, 322940, 265315, 266411, 188247, 127190, 28265]⟩,
   ⟨33049, 36431157, 36431160, 11761, 79802650, 384593419, ⟨70928850574, 1, 10000000000, 3364994700, 1, 10000000000⟩, 172828071, ⟨709288505, 17364, 100000000, 3364994700, 1, 10000000000⟩,
      [386631, 388228, 389832, 320271, 263122, 264209, 186690, 126138, 28031]⟩,
   ⟨33423, 38051331, 38051334, 12096, 84508954, 382776960, ⟨70926823956, 1, 10000000000, 3418984610, 1, 10000000000⟩, 183025341, ⟨709268239, 20267, 100000000, 3418984610, 1, 10000000000⟩,
      [383496, 385081, 386671, 317674, 260989, 262067, 185177, 125116, 27804]⟩,
   ⟨33798, 39704273, 39704276, 12485, 89177104, 380883678, ⟨70924470659, 1, 10000000000, 3473628114, 1, 10000000000⟩, 193139938, ⟨709244706, 23534, 100000000, 3473628114, 1, 10000000000⟩,
      [381454, 383030, 384613, 315983, 317288, 213276, 175219, 123365, 27415]⟩,
   ⟨34175, 41393851, 41393854, 12935, 93820390, 378911289, ⟨70921748336, 1, 10000000000, 3529084353, 1, 10000000000⟩, 203200662, ⟨709217483, 27224, 100000000, 3529084353, 1, 10000000000⟩,
      [377470, 379030, 380596, 312682, 313974, 211049, 173389, 149211]⟩,
   ⟨34552, 43110438, 43110441, 13453, 98415192, 376873187, ⟨70918614640, 1, 10000000000, 3585070765, 1, 10000000000⟩, 213156336, ⟨709186146, 31338, 100000000, 3585070765, 1, 10000000000⟩,
      [374584, 376132, 377686, 310292, 311574, 209436, 172064, 148075]⟩,
   ⟨34930, 44857804, 44857807, 14048, 102974878, 374767016, ⟨70915015124, 1, 10000000000, 3641745644, 1, 10000000000⟩, 223035921, ⟨709150151, 35996, 100000000, 3641745644, 1, 10000000000⟩,
      [371779, 373315, 374857, 307968, 309240, 207867, 170775, 120241, 26721]⟩,
   ⟨35309, 46635265, 46635268, 14729, 107500404, 372595444, ⟨70910895341, 1, 10000000000, 3699121159, 1, 10000000000⟩, 232841493, ⟨709108953, 41199, 100000000, 3699121159, 1, 10000000000⟩,
      [449880, 369604, 371131, 304906, 250499, 205800, 157984, 130464]⟩,
   ⟨35688, 48437346, 48437349, 15504, 111980940, 370366982, ⟨70906206896, 1, 10000000000, 3757056165, 1, 10000000000⟩, 242549582, ⟨709062068, 46886, 100000000, 3757056165, 1, 10000000000⟩,
      [445488, 365996, 367508, 301931, 248054, 203791, 156442, 129189]⟩,
   ⟨36067, 50263167, 50263170, 16382, 116417738, 368084493, ⟨70900895341, 1, 10000000000, 3815558885, 1, 10000000000⟩, 252162907, ⟨709008953, 53116, 100000000, 3815558885, 1, 10000000000⟩,
      [441219, 362488, 363986, 299037, 245677, 201838, 154941, 127952]⟩,
   ⟨36446, 52111860, 52111863, 17374, 120812014, 365750706, ⟨70894894131, 1, 10000000000, 3874637705, 1, 10000000000⟩, 261684095, ⟨708948941, 60013, 100000000, 3874637705, 1, 10000000000⟩,
      [435919, 358133, 359613, 295443, 242724, 199413, 187105, 92398]⟩,
   ⟨36824, 53977605, 53977608, 18488, 125153510, 363374560, ⟨70888154869, 1, 10000000000, 3934142976, 1, 10000000000⟩, 271090921, ⟨708881548, 67394, 100000000, 3934142976, 1, 10000000000⟩,
      [430765, 353899, 355361, 291951, 239855, 197055, 184892, 91306]⟩,
   ⟨37201, 55859395, 55859398, 19735, 129443678, 360958878, ⟨70880611010, 1, 10000000000, 3994078701, 1, 10000000000⟩, 280386538, ⟨708806110, 75439, 100000000, 3994078701, 1, 10000000000⟩,
      [425754, 349783, 351228, 288555, 237065, 194763, 182735, 90240]⟩,
   ⟨37577, 57756252, 57756255, 21127, 133683924, 358506329, ⟨70872189957, 1, 10000000000, 4054448928, 1, 10000000000⟩, 289573986, ⟨708721899, 84212, 100000000, 4054448928, 1, 10000000000⟩,
      [419759, 344857, 346282, 284492, 233728, 192021, 180163, 88971]⟩]

def tans1 : List Tan :=
  [⟨37951, 59662108, 59662111, 22670, 137864470, 356026110, ⟨70862855414, 1, 10000000000, 4115094791, 1, 10000000000⟩, 298632079, ⟨708628554, 93346, 100000000, 4115094791, 1, 10000000000⟩,
      [415032, 340974, 342382, 281287, 231094, 189858, 178141, 87973]⟩,
   ⟨38324, 61581067, 61581070, 24380, 141997952, 353514121, ⟨70852510586, 1, 10000000000, 4176180142, 1, 10000000000⟩, 307588199, ⟨708525105, 103450, 100000000, 4176180142, 1, 10000000000⟩,
      [408235, 335390, 336775, 276681, 227310, 228249, 147440, 72811]⟩,
   ⟨38694, 63501819, 63501822, 26260, 146063734, 350986363, ⟨70841137326, 1, 10000000000, 4237376671, 1, 10000000000⟩, 316397630, ⟨708411373, 113733, 100000000, 4237376671, 1, 10000000000⟩,
      [402705, 330847, 332213, 272933, 224230, 225157, 145441, 71824]⟩,
   ⟨39062, 65428504, 65428507, 28325, 150074434, 348438520, ⟨70828644888, 1, 10000000000, 4298846493, 1, 10000000000⟩, 325087715, ⟨708286448, 124926, 100000000, 4298846493, 1, 10000000000⟩,
      [396234, 325531, 326875, 268547, 269656, 173105, 142710, 70475]⟩,
   ⟨39427, 67354888, 67354891, 30581, 154020700, 345879879, ⟨70814996975, 1, 10000000000, 4360419174, 1, 10000000000⟩, 333638191, ⟨708149969, 136480, 100000000, 4360419174, 1, 10000000000⟩,
      [388854, 319467, 320787, 263546, 264635, 207633, 140287, 31176]⟩,
   ⟨39788, 69274618, 69274621, 33030, 157893470, 343319904, ⟨70800181488, 1, 10000000000, 4421917525, 1, 10000000000⟩, 342029417, ⟨708001814, 148156, 100000000, 4421917525, 1, 10000000000⟩,
      [382722, 384304, 315729, 259391, 213105, 175078, 143603, 31912]⟩,
   ⟨40146, 71191993, 71191996, 35687, 161705158, 340753797, ⟨70784107683, 1, 10000000000, 4483503240, 1, 10000000000⟩, 350288300, ⟨707841076, 160739, 100000000, 4483503240, 1, 10000000000⟩,
      [375681, 377233, 309920, 254619, 209185, 171858, 140958, 31325]⟩,
   ⟨40500, 73100695, 73100698, 38555, 165446716, 338190879, ⟨70766757410, 1, 10000000000, 4544995455, 1, 10000000000⟩, 358395227, ⟨707667574, 173503, 100000000, 4544995455, 1, 10000000000⟩,
      [367755, 369274, 303381, 249246, 204771, 168232, 137987, 30664]⟩,
   ⟨40849, 74994317, 74994320, 41630, 169109336, 335640580, ⟨70748154869, 1, 10000000000, 4606206395, 1, 10000000000⟩, 366331118, ⟨707481548, 186027, 100000000, 4606206395, 1, 10000000000⟩,
      [361053, 362544, 297852, 244704, 201039, 165166, 135478, 30107]⟩,
   ⟨41194, 76877334, 76877337, 44929, 172705222, 333097657, ⟨70728197217, 1, 10000000000, 4667297191, 1, 10000000000⟩, 374122413, ⟨707281972, 199577, 100000000, 4667297191, 1, 10000000000⟩,
      [353467, 354927, 291594, 239562, 196815, 161695, 132628, 29473]⟩,
   ⟨41534, 78743391, 78743394, 48446, 176225544, 330571375, ⟨70706920750, 1, 10000000000, 4728076303, 1, 10000000000⟩, 381749982, ⟨707069207, 212766, 100000000, 4728076303, 1, 10000000000⟩,
      [346045, 347475, 285472, 234532, 192682, 158300, 129844, 28855]⟩,
   ⟨41869, 80591606, 80591609, 52185, 179671954, 328063591, ⟨70684301270, 1, 10000000000, 4788526549, 1, 10000000000⟩, 389217405, ⟨706843012, 226196, 100000000, 4788526549, 1, 10000000000⟩,
      [337756, 339151, 278633, 228914, 229860, 146574, 121041]⟩,
   ⟨42198, 82415596, 82415599, 56135, 183035812, 325583580, ⟨70660405323, 1, 10000000000, 4848447579, 1, 10000000000⟩, 396505963, ⟨706604053, 238960, 100000000, 4848447579, 1, 10000000000⟩,
      [330656, 332022, 272776, 224102, 225028, 143491, 118496]⟩,
   ⟨42522, 84220095, 84220098, 60310, 186328954, 323125477, ⟨70635148215, 1, 10000000000, 4908001462, 1, 10000000000⟩, 403641295, ⟨706351482, 252572, 100000000, 4908001462, 1, 10000000000⟩,
      [322683, 324016, 266198, 267298, 179673, 165346, 81654]⟩,
   ⟨42840, 85998779, 85998782, 64697, 189542690, 320698405, ⟨70608608590, 1, 10000000000, 4966984164, 1, 10000000000⟩, 410604578, ⟨706086085, 265398, 100000000, 4966984164, 1, 10000000000⟩,
      [314864, 316165, 259749, 260822, 175320, 161337, 79673]⟩,
   ⟨43152, 87750911, 87750914, 69293, 192678550, 318303852, ⟨70580804597, 1, 10000000000, 5025372822, 1, 10000000000⟩, 417399124, ⟨705808045, 278041, 100000000, 5025372822, 1, 10000000000⟩,
      [375453, 308457, 253416, 208197, 171045, 142681, 70462]⟩,
   ⟨43458, 89475807, 89475810, 74094, 195737972, 315943185, ⟨70551760435, 1, 10000000000, 5083144466, 1, 10000000000⟩, 424028054, ⟨705517604, 290442, 100000000, 5083144466, 1, 10000000000⟩,
      [366241, 300889, 247198, 203089, 166850, 139180, 68731]⟩,
   ⟨43758, 91172829, 91172832, 79097, 198722328, 313617680, ⟨70521494252, 1, 10000000000, 5140276039, 1, 10000000000⟩, 430494330, ⟨705214942, 302663, 100000000, 5140276039, 1, 10000000000⟩,
      [357187, 293451, 241087, 242082, 176077, 118967, 26438]⟩,
   ⟨44052, 92841386, 92841389, 84296, 201632906, 311328502, ⟨70490042347, 1, 10000000000, 5196744411, 1, 10000000000⟩, 436800755, ⟨704900423, 314520, 100000000, 5196744411, 1, 10000000000⟩,
      [348284, 286137, 235079, 236050, 171688, 116001, 25778]⟩,
   ⟨44340, 94480930, 94480933, 89684, 204470940, 309076726, ⟨70457447065, 1, 10000000000, 5252526401, 1, 10000000000⟩, 442949996, ⟨704574470, 325954, 100000000, 5252526401, 1, 10000000000⟩,
      [339525, 278941, 229167, 230113, 167369, 113084, 25130]⟩,
   ⟨44622, 96090950, 96090953, 95256, 207237598, 306863358, ⟨70423738656, 1, 10000000000, 5307598794, 1, 10000000000⟩, 448944580, ⟨704237386, 337085, 100000000, 5307598794, 1, 10000000000⟩,
      [330900, 271854, 272977, 183490, 150748, 113089, 25132]⟩,
   ⟨44898, 97670973, 97670976, 101004, 209933978, 304689318, ⟨70388965517, 1, 10000000000, 5361938363, 1, 10000000000⟩, 454786894, ⟨703889655, 347732, 100000000, 5361938363, 1, 10000000000⟩,
      [322405, 264875, 265969, 218509, 132444, 109372]⟩,
   ⟨45168, 99220561, 99220564, 106918, 212561126, 302555443, ⟨70353188142, 1, 10000000000, 5415521887, 1, 10000000000⟩, 460479205, ⟨703531881, 357775, 100000000, 5415521887, 1, 10000000000⟩,
      [314029, 257994, 259060, 212834, 157673, 77865]⟩,
   ⟨45432, 100739308, 100739311, 112990, 215120036, 300462524, ⟨70316454930, 1, 10000000000, 5468326172, 1, 10000000000⟩, 466023660, ⟨703164549, 367333, 100000000, 5468326172, 1, 10000000000⟩,
      [305770, 307034, 252247, 169556, 141378, 69818]⟩,
   ⟨45690, 102226834, 102226837, 119209, 217611642, 298411277, ⟨70278832425, 1, 10000000000, 5520328073, 1, 10000000000⟩, 471422282, ⟨702788324, 376226, 100000000, 5520328073, 1, 10000000000⟩,
      [298803, 300037, 246498, 165692, 138157, 68227]⟩,
   ⟨45943, 103688575, 103688578, 125590, 220046470, 296394383, ⟨70240229885, 1, 10000000000, 5571708358, 1, 10000000000⟩, 476697886, ⟨702402298, 386027, 100000000, 5571708358, 1, 10000000000⟩,
      [290742, 291943, 239849, 161222, 134430, 66387]⟩,
   ⟨46190, 105118445, 105118448, 132099, 222415616, 294420405, ⟨70200852994, 1, 10000000000, 5622243195, 1, 10000000000⟩, 481831177, ⟨702008529, 393770, 100000000, 5622243195, 1, 10000000000⟩,
      [283959, 285132, 234253, 157460, 131296, 64840]⟩,
   ⟨46432, 106521946, 106521949, 138752, 224729496, 292481889, ⟨70160604960, 1, 10000000000, 5672116485, 1, 10000000000⟩, 486844718, ⟨701606049, 402481, 100000000, 5672116485, 1, 10000000000⟩,
      [276080, 277221, 227754, 187114, 128183, 28486]⟩]

def tans2 : List Tan :=
  [⟨46668, 107893012, 107893015, 145510, 226979172, 290587342, ⟨70119721718, 1, 10000000000, 5721101523, 1, 10000000000⟩, 491719148, ⟨701197217, 408833, 100000000, 5721101523, 1, 10000000000⟩,
      [329346, 270578, 222296, 150979, 102010, 22670]⟩,
   ⟨46899, 109237207, 109237210, 152390, 229174930, 288729196, ⟨70078100423, 1, 10000000000, 5769385345, 1, 10000000000⟩, 496476752, ⟨700781004, 416214, 100000000, 5769385345, 1, 10000000000⟩,
      [321340, 264001, 216892, 147312, 99532, 22119]⟩,
   ⟨47125, 110554314, 110554317, 159383, 231317322, 286907857, ⟨70035795523, 1, 10000000000, 5816949696, 1, 10000000000⟩, 501118725, ⟨700357955, 423050, 100000000, 5816949696, 1, 10000000000⟩,
      [313419, 257493, 211545, 143681, 97078, 21574]⟩,
   ⟨47346, 111844132, 111844135, 166477, 233406902, 285123692, ⟨69992879612, 1, 10000000000, 5863776396, 1, 10000000000⟩, 505646273, ⟨699928796, 429160, 100000000, 5863776396, 1, 10000000000⟩,
      [305578, 251051, 206253, 140085, 94650, 21034]⟩,
   ⟨47562, 113106475, 113106478, 173662, 235444204, 283377049, ⟨69949413188, 1, 10000000000, 5909847354, 1, 10000000000⟩, 510060545, ⟨699494131, 434666, 100000000, 5909847354, 1, 10000000000⟩,
      [299229, 245835, 201969, 137175, 92683, 20597]⟩,
   ⟨47774, 114347023, 114347026, 180961, 237439180, 281660139, ⟨69905257108, 1, 10000000000, 5955359956, 1, 10000000000⟩, 514383108, ⟨699052571, 441561, 100000000, 5955359956, 1, 10000000000⟩,
      [291519, 239500, 196763, 133641, 110361]⟩,
   ⟨47981, 115559772, 115559775, 188330, 239382748, 279981339, ⟨69860677555, 1, 10000000000, 6000083684, 1, 10000000000⟩, 518594289, ⟨698606775, 445797, 100000000, 6000083684, 1, 10000000000⟩,
      [285296, 234387, 192563, 130791, 108007]⟩,
   ⟨48184, 116750440, 116750443, 195794, 241284836, 278332797, ⟨69815523290, 1, 10000000000, 6044218834, 1, 10000000000⟩, 522715587, ⟨698155232, 451544, 100000000, 6044218834, 1, 10000000000⟩,
      [279121, 229315, 188396, 127957, 105667]⟩,
   ⟨48383, 117918904, 117918907, 203345, 243145748, 276714740, ⟨69769842710, 1, 10000000000, 6087751752, 1, 10000000000⟩, 526747673, ⟨697698427, 456806, 100000000, 6087751752, 1, 10000000000⟩,
      [272997, 224284, 184263, 125149, 103349]⟩,
   ⟨48578, 119065048, 119065051, 210972, 244965832, 275127365, ⟨69723702359, 1, 10000000000, 6130668836, 1, 10000000000⟩, 530691296, ⟨697237023, 461405, 100000000, 6130668836, 1, 10000000000⟩,
      [266923, 219293, 180162, 122365, 101051]⟩,
   ⟨48769, 120188765, 120188768, 218667, 246745420, 273570874, ⟨69677150635, 1, 10000000000, 6172956549, 1, 10000000000⟩, 534547173, ⟨696771506, 465518, 100000000, 6172956549, 1, 10000000000⟩,
      [260894, 214340, 176094, 146182, 72189]⟩,
   ⟨48956, 121289954, 121289957, 226420, 248484818, 272045441, ⟨69630248033, 1, 10000000000, 6214601424, 1, 10000000000⟩, 538315971, ⟨696302480, 469027, 100000000, 6214601424, 1, 10000000000⟩,
      [254910, 209424, 172054, 142829, 70534]⟩,
   ⟨49139, 122368521, 122368524, 234222, 250184320, 270551239, ⟨69583049001, 1, 10000000000, 6255590076, 1, 10000000000⟩, 541998324, ⟨695830490, 471991, 100000000, 6255590076, 1, 10000000000⟩,
      [250370, 205695, 168991, 140282, 69276]⟩,
   ⟨49319, 123430279, 123430282, 242106, 251853548, 269080237, ⟨69535353901, 1, 10000000000, 6296135092, 1, 10000000000⟩, 545615083, ⟨695353539, 476952, 100000000, 6296135092, 1, 10000000000⟩,
      [244450, 200830, 164994, 136969, 67640]⟩,
   ⟨49495, 124469253, 124469256, 250020, 253483314, 267640742, ⟨69487477313, 1, 10000000000, 6335999885, 1, 10000000000⟩, 549146338, ⟨694874773, 478767, 100000000, 6335999885, 1, 10000000000⟩,
      [239980, 197158, 161977, 134462, 66402]⟩,
   ⟨49668, 125491275, 125491278, 258001, 255083272, 266224703, ⟨69439195402, 1, 10000000000, 6375399675, 1, 10000000000⟩, 552613008, ⟨694391954, 482820, 100000000, 6375399675, 1, 10000000000⟩,
      [286156, 192349, 158026, 117769, 26171]⟩,
   ⟨49837, 126490371, 126490374, 265993, 256644214, 264840414, ⟨69390846944, 1, 10000000000, 6414095509, 1, 10000000000⟩, 555995141, ⟨693908469, 483486, 100000000, 6414095509, 1, 10000000000⟩,
      [280768, 188728, 155052, 115549, 25678]⟩,
   ⟨50003, 127472389, 127472392, 274036, 258175764, 263479799, ⟨69342189957, 1, 10000000000, 6452305214, 1, 10000000000⟩, 559313588, ⟨693421899, 486571, 100000000, 6452305214, 1, 10000000000⟩,
      [275395, 185116, 152084, 113339, 25187]⟩,
   ⟨50166, 128437276, 128437279, 282122, 259678006, 262142945, ⟨69293272837, 1, 10000000000, 6490019528, 1, 10000000000⟩, 562568532, ⟨692932728, 489172, 100000000, 6490019528, 1, 10000000000⟩,
      [270053, 181525, 149134, 111140, 24698]⟩,
   ⟨50326, 129384982, 129384985, 290243, 261151106, 260829935, ⟨69244143980, 1, 10000000000, 6527229230, 1, 10000000000⟩, 565760338, ⟨692441439, 491290, 100000000, 6527229230, 1, 10000000000⟩,
      [266445, 179100, 147141, 109656, 24369]⟩,
   ⟨50484, 130321388, 130321391, 298444, 262604528, 259532635, ⟨69194531155, 1, 10000000000, 6564159470, 1, 10000000000⟩, 568909502, ⟨691945311, 496129, 100000000, 6564159470, 1, 10000000000⟩,
      [261138, 175533, 144211, 107470, 23883]⟩,
   ⟨50639, 131240527, 131240530, 306668, 264028998, 258259328, ⟨69144779189, 1, 10000000000, 6600569125, 1, 10000000000⟩, 571995937, ⟨691447791, 497521, 100000000, 6600569125, 1, 10000000000⟩,
      [255874, 210217, 126952, 85775, 19062]⟩,
   ⟨50791, 132142358, 132142361, 314907, 265424758, 257010082, ⟨69094936479, 1, 10000000000, 6636449096, 1, 10000000000⟩, 575020166, ⟨690949364, 498428, 100000000, 6636449096, 1, 10000000000⟩,
      [252339, 207311, 125199, 84591, 18798]⟩,
   ⟨50941, 133032777, 133032780, 323209, 266801234, 255776736, ⟨69044712643, 1, 10000000000, 6672028109, 1, 10000000000⟩, 578002610, ⟨690447126, 502239, 100000000, 6672028109, 1, 10000000000⟩,
      [247100, 203008, 122598, 82834, 18408]⟩,
   ⟨51088, 133905815, 133905818, 331512, 268149130, 254567566, ⟨68994482758, 1, 10000000000, 6707061676, 1, 10000000000⟩, 580923132, ⟨689944827, 502300, 100000000, 6707061676, 1, 10000000000⟩,
      [243607, 200137, 120865, 81663, 18148]⟩,
   ⟨51233, 134767379, 134767382, 339867, 269477970, 253374400, ⟨68943938294, 1, 10000000000, 6741780858, 1, 10000000000⟩, 583802364, ⟨689439382, 505446, 100000000, 6741780858, 1, 10000000000⟩,
      [240109, 197264, 119129, 80491, 17887]⟩,
   ⟨51376, 135617443, 135617446, 348268, 270787730, 252197275, ⟨68893115547, 1, 10000000000, 6776180091, 1, 10000000000⟩, 586640252, ⟨688931155, 508228, 100000000, 6776180091, 1, 10000000000⟩,
      [234925, 193005, 116558, 78752, 17501]⟩,
   ⟨51516, 136450035, 136450038, 356652, 272069212, 251044479, ⟨68842395644, 1, 10000000000, 6810011621, 1, 10000000000⟩, 589416873, ⟨688423956, 507200, 100000000, 6810011621, 1, 10000000000⟩,
      [231484, 190178, 114850, 77600, 17245]⟩]

def tans3 : List Tan :=
  [⟨51654, 137271074, 137271077, 365071, 273331926, 249907811, ⟨68791464004, 1, 10000000000, 6843509937, 1, 10000000000⟩, 592152827, ⟨687914640, 509317, 100000000, 6843509937, 1, 10000000000⟩,
      [228035, 187344, 138282, 68289]⟩,
   ⟨51790, 138080537, 138080540, 373521, 274575826, 248787310, ⟨68740344827, 1, 10000000000, 6876669540, 1, 10000000000⟩, 594848014, ⟨687403448, 511193, 100000000, 6876669540, 1, 10000000000⟩,
      [224599, 184521, 136198, 67260]⟩,
   ⟨51924, 138878406, 138878409, 381996, 275800982, 247683005, ⟨68689074410, 1, 10000000000, 6909484948, 1, 10000000000⟩, 597502591, ⟨686890744, 512705, 100000000, 6909484948, 1, 10000000000⟩,
      [221177, 181710, 134122, 66235]⟩,
   ⟨52056, 139664658, 139664661, 390492, 277007470, 246594929, ⟨68637676950, 1, 10000000000, 6941950697, 1, 10000000000⟩, 600116721, ⟨686376769, 513976, 100000000, 6941950697, 1, 10000000000⟩,
      [217766, 178908, 132055, 65214]⟩,
   ⟨52186, 140439276, 140439279, 399004, 278195356, 245523112, ⟨68586182698, 1, 10000000000, 6974061345, 1, 10000000000⟩, 602690542, ⟨685861826, 514944, 100000000, 6974061345, 1, 10000000000⟩,
      [214367, 176116, 129994, 64196]⟩,
   ⟨52314, 141202241, 141202244, 407526, 279364702, 244467575, ⟨68534627949, 1, 10000000000, 7005811472, 1, 10000000000⟩, 605224193, ⟨685346279, 515548, 100000000, 7005811472, 1, 10000000000⟩,
      [212686, 174735, 128973, 63691]⟩,
   ⟨52441, 141959500, 141959503, 416123, 280524872, 243420104, ⟨68482619479, 1, 10000000000, 7037445285, 1, 10000000000⟩, 607737963, ⟨684826194, 520086, 100000000, 7037445285, 1, 10000000000⟩,
      [209277, 171933, 126908, 62672]⟩,
   ⟨52566, 142705077, 142705080, 424722, 281666452, 242388957, ⟨68430598911, 1, 10000000000, 7068709860, 1, 10000000000⟩, 610211451, ⟨684305989, 520206, 100000000, 7068709860, 1, 10000000000⟩,
      [205909, 169166, 124865, 61663]⟩,
   ⟨52689, 143438956, 143438959, 433319, 282789658, 241374163, ⟨68378590441, 1, 10000000000, 7099599830, 1, 10000000000⟩, 612645131, ⟨683785904, 520086, 100000000, 7099599830, 1, 10000000000⟩,
      [204258, 167810, 123862, 61168]⟩,
   ⟨52811, 144167092, 144167095, 441980, 283903854, 240367487, ⟨68326194797, 1, 10000000000, 7130362512, 1, 10000000000⟩, 615059288, ⟨683261947, 523958, 100000000, 7130362512, 1, 10000000000⟩,
      [200874, 165030, 121811, 60155]⟩,
   ⟨52931, 144883504, 144883507, 450631, 284999594, 239377201, ⟨68273859649, 1, 10000000000, 7160741942, 1, 10000000000⟩, 617433456, ⟨682738596, 523352, 100000000, 7160741942, 1, 10000000000⟩,
      [197531, 162283, 119784, 59153]⟩,
   ⟨53049, 145588178, 145588181, 459266, 286077096, 238403318, ⟨68221621294, 1, 10000000000, 7190732815, 1, 10000000000⟩, 619768106, ⟨682216212, 522385, 100000000, 7190732815, 1, 10000000000⟩,
      [195905, 160947, 118799, 58667]⟩,
   ⟨53166, 146287077, 146287080, 467956, 287145732, 237437608, ⟨68169050211, 1, 10000000000, 7220585505, 1, 10000000000⟩, 622083548, ⟨681690502, 525711, 100000000, 7220585505, 1, 10000000000⟩,
      [192540, 158183, 116758, 57660]⟩,
   ⟨53281, 146974215, 146974218, 476621, 288196014, 236488326, ⟨68116630369, 1, 10000000000, 7250041086, 1, 10000000000⟩, 624359221, ⟨681166303, 524200, 100000000, 7250041086, 1, 10000000000⟩,
      [190931, 156861, 115782, 57178]⟩,
   ⟨53395, 147655560, 147655563, 485334, 289237518, 235547239, ⟨68063920145, 1, 10000000000, 7279351929, 1, 10000000000⟩, 626615874, ⟨680639201, 527103, 100000000, 7279351929, 1, 10000000000⟩,
      [189292, 155515, 114787, 56687]⟩,
   ⟨53508, 148331103, 148331106, 494093, 290270080, 234614358, ⟨68010931639, 1, 10000000000, 7308515740, 1, 10000000000⟩, 628853151, ⟨680109316, 529886, 100000000, 7308515740, 1, 10000000000⟩,
      [185942, 152762, 112757, 55684]⟩,
   ⟨53619, 148994858, 148994861, 502816, 291284370, 233697945, ⟨67958160919, 1, 10000000000, 7337270683, 1, 10000000000⟩, 631050840, ⟨679581609, 527708, 100000000, 7337270683, 1, 10000000000⟩,
      [184354, 151458, 111793, 55208]⟩,
   ⟨53729, 149652796, 149652799, 511578, 292289996, 232789755, ⟨67905154264, 1, 10000000000, 7365872074, 1, 10000000000⟩, 633229755, ⟨679051542, 530068, 100000000, 7365872074, 1, 10000000000⟩,
      [223339, 150646, 83278, 41126]⟩,
   ⟨53838, 150304911, 150304914, 520378, 293286774, 231889804, ⟨67851917725, 1, 10000000000, 7394317623, 1, 10000000000⟩, 635389498, ⟨678519177, 532366, 100000000, 7394317623, 1, 10000000000⟩,
      [219259, 147894, 99925, 22206]⟩,
   ⟨53945, 150945211, 150945214, 529131, 294265342, 231006354, ⟨67798965517, 1, 10000000000, 7422342647, 1, 10000000000⟩, 637509785, ⟨677989655, 529523, 100000000, 7422342647, 1, 10000000000⟩,
      [217339, 146598, 99050, 22012]⟩,
   ⟨54051, 151579675, 151579678, 537914, 295235340, 230131151, ⟨67745831820, 1, 10000000000, 7450205361, 1, 10000000000⟩, 639611506, ⟨677458318, 531338, 100000000, 7450205361, 1, 10000000000⟩,
      [215374, 145273, 98155, 21813]⟩,
   ⟨54156, 152208296, 152208299, 546726, 296196570, 229264209, ⟨67692522686, 1, 10000000000, 7477903482, 1, 10000000000⟩, 641694224, ⟨676925226, 533093, 100000000, 7477903482, 1, 10000000000⟩,
      [213413, 143951, 97261, 21614]⟩,
   ⟨54260, 152831069, 152831072, 555565, 297149048, 228405536, ⟨67639050211, 1, 10000000000, 7505434731, 1, 10000000000⟩, 643757984, ⟨676390502, 534725, 100000000, 7505434731, 1, 10000000000⟩,
      [211459, 142632, 96370, 21416]⟩,
   ⟨54363, 153447990, 153447993, 564427, 298092802, 227555128, ⟨67585438596, 1, 10000000000, 7532796827, 1, 10000000000⟩, 645802837, ⟨675854385, 536118, 100000000, 7532796827, 1, 10000000000⟩,
      [207394, 139891, 94518, 21004]⟩,
   ⟨54464, 154053062, 154053065, 573224, 299018416, 226721259, ⟨67532220205, 1, 10000000000, 7559720459, 1, 10000000000⟩, 647808388, ⟨675322202, 532184, 100000000, 7559720459, 1, 10000000000⟩,
      [205505, 138616, 93656, 20813]⟩,
   ⟨54564, 154652269, 154652272, 582038, 299935596, 225895670, ⟨67478898971, 1, 10000000000, 7586468556, 1, 10000000000⟩, 649795668, ⟨674788989, 533214, 100000000, 7586468556, 1, 10000000000⟩,
      [203562, 137306, 92772, 20616]⟩,
   ⟨54663, 155245609, 155245612, 590867, 300844108, 225078367, ⟨67425486993, 1, 10000000000, 7613038857, 1, 10000000000⟩, 651764161, ⟨674254869, 534121, 100000000, 7613038857, 1, 10000000000⟩,
      [201622, 135999, 91887, 20420]⟩,
   ⟨54761, 155833075, 155833078, 599710, 301743964, 224269363, ⟨67371990320, 1, 10000000000, 7639429102, 1, 10000000000⟩, 653713903, ⟨673719903, 534967, 100000000, 7639429102, 1, 10000000000⟩,
      [199687, 134691, 91005, 20224]⟩]

def tans4 : List Tan :=
  [⟨54858, 156414665, 156414668, 608562, 302635178, 223468646, ⟨67318439201, 1, 10000000000, 7665637035, 1, 10000000000⟩, 655644921, ⟨673184392, 535512, 100000000, 7665637035, 1, 10000000000⟩,
      [197756, 133389, 90126, 20028]⟩,
   ⟨54954, 156990375, 156990378, 617424, 303517776, 222676238, ⟨67264827586, 1, 10000000000, 7691660406, 1, 10000000000⟩, 657557267, ⟨672648275, 536118, 100000000, 7691660406, 1, 10000000000⟩,
      [195826, 132088, 89245, 19833]⟩,
   ⟨55049, 157560200, 157560203, 626291, 304391760, 221892129, ⟨67211185722, 1, 10000000000, 7717496964, 1, 10000000000⟩, 659450948, ⟨672111857, 536419, 100000000, 7717496964, 1, 10000000000⟩,
      [193900, 130788, 88369, 19638]⟩,
   ⟨55143, 158124138, 158124141, 635162, 305257150, 221116328, ⟨67157519661, 1, 10000000000, 7743144467, 1, 10000000000⟩, 661326012, ⟨671575196, 536662, 100000000, 7743144467, 1, 10000000000⟩,
      [191977, 129492, 87491, 19443]⟩,
   ⟨55236, 158682184, 158682187, 644034, 306113956, 220348835, ⟨67103847549, 1, 10000000000, 7768600676, 1, 10000000000⟩, 663182475, ⟨671038475, 536722, 100000000, 7768600676, 1, 10000000000⟩,
      [190056, 128196, 86616, 19249]⟩,
   ⟨55328, 159234336, 159234339, 652905, 306962190, 219589655, ⟨67050181488, 1, 10000000000, 7793863358, 1, 10000000000⟩, 665020363, ⟨670501814, 536662, 100000000, 7793863358, 1, 10000000000⟩,
      [188136, 126902, 85742, 19054]⟩,
   ⟨55419, 159780590, 159780593, 661772, 307801858, 218838787, ⟨66996539624, 1, 10000000000, 7818930285, 1, 10000000000⟩, 666839697, ⟨669965396, 536419, 100000000, 7818930285, 1, 10000000000⟩,
      [188369, 127058, 85847, 19078]⟩,
   ⟨55510, 160326947, 160326950, 670733, 308642562, 218087988, ⟨66942329098, 1, 10000000000, 7844075991, 1, 10000000000⟩, 668661271, ⟨669423290, 542107, 100000000, 7844075991, 1, 10000000000⟩,
      [186381, 125717, 84942, 18876]⟩,
   ⟨55600, 160867403, 160867406, 679687, 309474394, 217345505, ⟨66888160919, 1, 10000000000, 7869023222, 1, 10000000000⟩, 670463621, ⟨668881609, 541682, 100000000, 7869023222, 1, 10000000000⟩,
      [184472, 124429, 84071, 18683]⟩,
   ⟨55689, 161401954, 161401957, 688633, 310297704, 216611345, ⟨66834041137, 1, 10000000000, 7893769751, 1, 10000000000⟩, 672247507, ⟨668340411, 541199, 100000000, 7893769751, 1, 10000000000⟩,
      [182562, 123142, 83200, 18490]⟩,
   ⟨55777, 161930596, 161930599, 697567, 311112492, 215885502, ⟨66779993950, 1, 10000000000, 7918313363, 1, 10000000000⟩, 674012928, ⟨667799939, 540473, 100000000, 7918313363, 1, 10000000000⟩,
      [180655, 121855, 82332, 18296]⟩,
   ⟨55864, 162453329, 162453332, 706489, 311918768, 215167989, ⟨66726019358, 1, 10000000000, 7942651847, 1, 10000000000⟩, 675759909, ⟨667260193, 539747, 100000000, 7942651847, 1, 10000000000⟩,
      [178748, 120568, 81462, 18103]⟩,
   ⟨55950, 162970147, 162970150, 715394, 312716530, 214458793, ⟨66672147610, 1, 10000000000, 7966783000, 1, 10000000000⟩, 677488438, ⟨666721476, 538718, 100000000, 7966783000, 1, 10000000000⟩,
      [179012, 120747, 81583, 18130]⟩,
   ⟨56036, 163487061, 163487064, 724386, 313515474, 213749678, ⟨66617749546, 1, 10000000000, 7990986482, 1, 10000000000⟩, 679219532, ⟨666177495, 543982, 100000000, 7990986482, 1, 10000000000⟩,
      [177025, 119405, 80677, 17929]⟩,
   ⟨56121, 163998058, 163998061, 733360, 314305546, 213048892, ⟨66563460375, 1, 10000000000, 8014979919, 1, 10000000000⟩, 680931398, ⟨665634603, 542893, 100000000, 8014979919, 1, 10000000000⟩,
      [175122, 118122, 79810, 17736]⟩,
   ⟨56205, 164503135, 164503138, 742312, 315087126, 212356427, ⟨66509304295, 1, 10000000000, 8038761116, 1, 10000000000⟩, 682624868, ⟨665093042, 541562, 100000000, 8038761116, 1, 10000000000⟩,
      [173221, 116840, 78943, 17544]⟩,
   ⟨56288, 165002291, 165002294, 751241, 315860222, 211672292, ⟨66455287356, 1, 10000000000, 8062327890, 1, 10000000000⟩, 684299954, ⟨664552873, 540170, 100000000, 8062327890, 1, 10000000000⟩,
      [173505, 117033, 79074, 17572]⟩,
   ⟨56371, 165501538, 165501541, 760253, 316634590, 210988241, ⟨66400768300, 1, 10000000000, 8085963237, 1, 10000000000⟩, 685977799, ⟨664007683, 545191, 100000000, 8085963237, 1, 10000000000⟩,
      [171513, 115690, 78166, 17371]⟩,
   ⟨56453, 165994860, 165994863, 769239, 317400070, 210312521, ⟨66346406533, 1, 10000000000, 8109381453, 1, 10000000000⟩, 687636381, ⟨663464065, 543619, 100000000, 8109381453, 1, 10000000000⟩,
      [169614, 114408, 77301, 17178]⟩,
   ⟨56534, 166482254, 166482257, 778195, 318157072, 209645121, ⟨66292226255, 1, 10000000000, 8132580365, 1, 10000000000⟩, 689276598, ⟨662922262, 541804, 100000000, 8132580365, 1, 10000000000⟩,
      [169918, 114612, 77439, 17209]⟩,
   ⟨56615, 166969738, 166969741, 787232, 318915428, 208977812, ⟨66237555958, 1, 10000000000, 8155845435, 1, 10000000000⟩, 690919747, ⟨662375559, 546704, 100000000, 8155845435, 1, 10000000000⟩,
      [167922, 113265, 76529, 17007]⟩,
   ⟨56695, 167451292, 167451295, 796237, 319664874, 208318830, ⟨66183079249, 1, 10000000000, 8178888499, 1, 10000000000⟩, 692543591, ⟨661830792, 544768, 100000000, 8178888499, 1, 10000000000⟩,
      [166025, 111987, 75664, 16815]⟩,
   ⟨56774, 167926913, 167926916, 805208, 320405856, 207668176, ⟨66128808227, 1, 10000000000, 8201707395, 1, 10000000000⟩, 694149095, ⟨661288082, 542711, 100000000, 8201707395, 1, 10000000000⟩,
      [166342, 112201, 75809, 16847]⟩,
   ⟨56853, 168402622, 168402625, 814257, 321148254, 207017612, ⟨66074065335, 1, 10000000000, 8224590026, 1, 10000000000⟩, 695757669, ⟨660740653, 547430, 100000000, 8224590026, 1, 10000000000⟩,
      [164341, 110852, 74897, 16644]⟩,
   ⟨56931, 168872396, 168872399, 823269, 321881722, 206375376, ⟨66019546279, 1, 10000000000, 8247245797, 1, 10000000000⟩, 697346891, ⟨660195462, 545192, 100000000, 8247245797, 1, 10000000000⟩,
      [162445, 109571, 74033, 16452]⟩,
   ⟨57008, 169336233, 169336236, 832241, 322606724, 205741464, ⟨65965269207, 1, 10000000000, 8269672559, 1, 10000000000⟩, 698917770, ⟨659652692, 542771, 100000000, 8269672559, 1, 10000000000⟩,
      [162777, 109796, 74185, 16486]⟩,
   ⟨57085, 169800156, 169800159, 841289, 323333212, 205107646, ⟨65910532365, 1, 10000000000, 8292160628, 1, 10000000000⟩, 700491872, ⟨659105323, 547370, 100000000, 8292160628, 1, 10000000000⟩,
      [160768, 108441, 73269, 16283]⟩,
   ⟨57161, 170258139, 170258142, 850294, 324050734, 204482152, ⟨65856055656, 1, 10000000000, 8314417007, 1, 10000000000⟩, 702046545, ⟨658560556, 544768, 100000000, 8314417007, 1, 10000000000⟩,
      [161113, 108675, 73426, 16317]⟩]

def tans5 : List Tan :=
  [⟨57237, 170716209, 170716212, 859374, 324769796, 203856753, ⟨65801125226, 1, 10000000000, 8336733599, 1, 10000000000⟩, 703604555, ⟨658011252, 549305, 100000000, 8336733599, 1, 10000000000⟩,
      [159101, 107316, 72508, 16114]⟩,
   ⟨57312, 171168336, 171168339, 868407, 325479874, 203239672, ⟨65746479128, 1, 10000000000, 8358815820, 1, 10000000000⟩, 705143097, ⟨657464791, 546462, 100000000, 8358815820, 1, 10000000000⟩,
      [157204, 106038, 71644, 15922]⟩,
   ⟨57386, 171614520, 171614523, 877393, 326181490, 202630919, ⟨65692117362, 1, 10000000000, 8380661546, 1, 10000000000⟩, 706663307, ⟨656921173, 543619, 100000000, 8380661546, 1, 10000000000⟩,
      [157563, 106279, 71807, 15958]⟩,
   ⟨57460, 172060788, 172060791, 886450, 326884704, 202022254, ⟨65637326073, 1, 10000000000, 8402565048, 1, 10000000000⟩, 708186978, ⟨656373260, 547914, 100000000, 8402565048, 1, 10000000000⟩,
      [155541, 104915, 70886, 15753]⟩,
   ⟨57533, 172501109, 172501112, 895457, 327578894, 201421917, ⟨65582837265, 1, 10000000000, 8424229391, 1, 10000000000⟩, 709691095, ⟨655828372, 544889, 100000000, 8424229391, 1, 10000000000⟩,
      [155910, 105164, 71055, 15790]⟩,
   ⟨57606, 172941515, 172941518, 904534, 328274732, 200821670, ⟨65527924984, 1, 10000000000, 8445950403, 1, 10000000000⟩, 711198785, ⟨655279249, 549124, 100000000, 8445950403, 1, 10000000000⟩,
      [153882, 126863, 62649]⟩,
   ⟨57678, 173375973, 173375976, 913557, 328961520, 200229743, ⟨65473339382, 1, 10000000000, 8467429595, 1, 10000000000⟩, 712686866, ⟨654733393, 545857, 100000000, 8467429595, 1, 10000000000⟩,
      [154264, 104053, 70305, 15624]⟩,
   ⟨57750, 173810515, 173810518, 922649, 329650012, 199637907, ⟨65418336358, 1, 10000000000, 8488964346, 1, 10000000000⟩, 714178640, ⟨654183363, 550031, 100000000, 8488964346, 1, 10000000000⟩,
      [152230, 125500, 61977]⟩,
   ⟨57821, 174239107, 174239110, 931684, 330329426, 199054390, ⟨65363678160, 1, 10000000000, 8510254620, 1, 10000000000⟩, 715650743, ⟨653636781, 546583, 100000000, 8510254620, 1, 10000000000⟩,
      [152622, 102947, 69557, 15458]⟩,
   ⟨57892, 174667783, 174667786, 940788, 331010594, 198470970, ⟨65308602540, 1, 10000000000, 8531599339, 1, 10000000000⟩, 717126649, ⟨653086025, 550757, 100000000, 8531599339, 1, 10000000000⟩,
      [150581, 124141, 61305]⟩,
   ⟨57962, 175090507, 175090510, 949832, 331682648, 197895866, ⟨65253889897, 1, 10000000000, 8552696931, 1, 10000000000⟩, 718582804, ⟨652538898, 547128, 100000000, 8552696931, 1, 10000000000⟩,
      [150986, 124474, 61470]⟩,
   ⟨58032, 175513315, 175513318, 958943, 332356508, 197320856, ⟨65198771929, 1, 10000000000, 8573847849, 1, 10000000000⟩, 720042872, ⟨651987719, 551180, 100000000, 8573847849, 1, 10000000000⟩,
      [148936, 122784, 60636]⟩,
   ⟨58101, 175930168, 175930171, 967990, 333021220, 196754155, ⟨65144041137, 1, 10000000000, 8594748997, 1, 10000000000⟩, 721483123, ⟨651440411, 547309, 100000000, 8594748997, 1, 10000000000⟩,
      [149354, 123129, 60805]⟩,
   ⟨58170, 176347106, 176347109, 977104, 333687796, 196187553, ⟨65088905021, 1, 10000000000, 8615702350, 1, 10000000000⟩, 722927408, ⟨650889050, 551362, 100000000, 8615702350, 1, 10000000000⟩,
      [147294, 121431, 59967]⟩,
   ⟨58238, 176758087, 176758090, 986151, 334345180, 195629258, ⟨65034174228, 1, 10000000000, 8636403298, 1, 10000000000⟩, 724351780, ⟨650341742, 547309, 100000000, 8636403298, 1, 10000000000⟩,
      [147722, 121785, 60142]⟩,
   ⟨58306, 177169153, 177169156, 995263, 335004478, 195071058, ⟨64979050211, 1, 10000000000, 8657155327, 1, 10000000000⟩, 725780297, ⟨649790502, 551241, 100000000, 8657155327, 1, 10000000000⟩,
      [148001, 122014, 60255]⟩,
   ⟨58374, 177580306, 177580309, 1004441, 335665018, 194512957, ⟨64923526920, 1, 10000000000, 8677958627, 1, 10000000000⟩, 727211503, ⟨649235269, 555234, 100000000, 8677958627, 1, 10000000000⟩,
      [145932, 120307, 59413]⟩,
   ⟨58441, 177985498, 177985501, 1013548, 336316322, 193963158, ⟨64868433151, 1, 10000000000, 8698506326, 1, 10000000000⟩, 728622701, ⟨648684331, 550939, 100000000, 8698506326, 1, 10000000000⟩,
      [146382, 120680, 59596]⟩,
   ⟨58508, 178390779, 178390782, 1022720, 336969638, 193413460, ⟨64812946158, 1, 10000000000, 8719104167, 1, 10000000000⟩, 730038257, ⟨648129461, 554871, 100000000, 8719104167, 1, 10000000000⟩,
      [176371, 97498, 48149]⟩,
   ⟨58574, 178790096, 178790099, 1031818, 337613674, 192872060, ⟨64757906836, 1, 10000000000, 8739443780, 1, 10000000000⟩, 731433705, ⟨647579068, 550394, 100000000, 8739443780, 1, 10000000000⟩,
      [144765, 119346, 58938]⟩,
   ⟨58640, 179189501, 179189504, 1040979, 338259772, 192330756, ⟨64702486388, 1, 10000000000, 8759832403, 1, 10000000000⟩, 732833624, ⟨647024863, 554206, 100000000, 8759832403, 1, 10000000000⟩,
      [174382, 96399, 47606]⟩,
   ⟨58705, 179582942, 179582945, 1050064, 338896546, 191797753, ⟨64647525710, 1, 10000000000, 8779960183, 1, 10000000000⟩, 734213339, ⟨646475257, 549607, 100000000, 8779960183, 1, 10000000000⟩,
      [174960, 96718, 47764]⟩,
   ⟨58770, 179976469, 179976472, 1059211, 339535430, 191264847, ⟨64592189957, 1, 10000000000, 8800135842, 1, 10000000000⟩, 735597624, ⟨645921899, 553359, 100000000, 8800135842, 1, 10000000000⟩,
      [143449, 118260, 58402]⟩,
   ⟨58835, 180370086, 180370089, 1068419, 340175652, 190732031, ⟨64536485178, 1, 10000000000, 8820359551, 1, 10000000000⟩, 736984809, ⟨645364851, 557049, 100000000, 8820359551, 1, 10000000000⟩,
      []⟩]

theorem tans0_ok : Tan.ok tan0 tans0 = true := by decide +kernel

theorem tans1_ok : Tan.ok ⟨37577, 57756252, 57756255, 21127, 133683924, 358506329, ⟨70872189957, 1, 10000000000, 4054448928, 1, 10000000000⟩, 289573986, ⟨708721899, 84212, 100000000, 4054448928, 1, 10000000000⟩, [419759, 344857, 346282, 284492, 233728, 192021, 180163, 88971]⟩ tans1 = true := by decide +kernel

theorem tans2_ok : Tan.ok ⟨46432, 106521946, 106521949, 138752, 224729496, 292481889, ⟨70160604960, 1, 10000000000, 5672116485, 1, 10000000000⟩, 486844718, ⟨701606049, 402481, 100000000, 5672116485, 1, 10000000000⟩, [276080, 277221, 227754, 187114, 128183, 28486]⟩ tans2 = true := by decide +kernel

theorem tans3_ok : Tan.ok ⟨51516, 136450035, 136450038, 356652, 272069212, 251044479, ⟨68842395644, 1, 10000000000, 6810011621, 1, 10000000000⟩, 589416873, ⟨688423956, 507200, 100000000, 6810011621, 1, 10000000000⟩, [231484, 190178, 114850, 77600, 17245]⟩ tans3 = true := by decide +kernel

theorem tans4_ok : Tan.ok ⟨54761, 155833075, 155833078, 599710, 301743964, 224269363, ⟨67371990320, 1, 10000000000, 7639429102, 1, 10000000000⟩, 653713903, ⟨673719903, 534967, 100000000, 7639429102, 1, 10000000000⟩, [199687, 134691, 91005, 20224]⟩ tans4 = true := by decide +kernel

theorem tans5_ok : Tan.ok ⟨57161, 170258139, 170258142, 850294, 324050734, 204482152, ⟨65856055656, 1, 10000000000, 8314417007, 1, 10000000000⟩, 702046545, ⟨658560556, 544768, 100000000, 8314417007, 1, 10000000000⟩, [161113, 108675, 73426, 16317]⟩ tans5 = true := by decide +kernel

def tans : List Tan := tans0 ++ (tans1 ++ (tans2 ++ (tans3 ++ (tans4 ++ tans5))))

theorem tans_ok : Tan.ok tan0 tans = true :=
  Tan.ok_append tans0_ok (Tan.ok_append tans1_ok (Tan.ok_append tans2_ok (Tan.ok_append tans3_ok (Tan.ok_append tans4_ok tans5_ok))))

theorem tans_last : (Tan.last tan0 tans).S = 340175652 := by
  simp only [tans, Tan.last_append]
  rfl

end PyX.Kron
