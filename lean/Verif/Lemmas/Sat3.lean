import Verif.Lemmas.Back3

/-!
# Polynomials on both sides of the saturation pressure from 623.15 K to the critical temperature

The saturation pressure is compared with `B3.low` and `B3.high` on 600 intervals; all three are monotone.
-/

namespace PyX.Kron.B3

open Spec Spec.Sat

theorem psat_le' {T : ℝ} {Tk β : ℚ} (h0 : 165 ≤ T) (h : T ≤ Tk) (h1 : (Tk : ℝ) ≤ 647.096) (hβ : 0 ≤ β)
    (hq : eqQ β (thQ Tk) ≤ 0) : psat T ≤ (β : ℝ) ^ 4 := by
  refine (psat_mono' h0 h (by linarith)).trans ?_
  have g : (Tk : ℝ) < n10 := by norm_num [n10] at h1 ⊢; linarith
  have t0 := theta_gt g
  have t1 := theta_le (T := (Tk : ℝ)) (by linarith)
  have hq' : eq29 β (theta Tk) ≤ 0 := by
    rw [← thQ_cast, ← eqQ_cast]; exact_mod_cast hq
  have hβ' : (0 : ℝ) ≤ β := by exact_mod_cast hβ
  exact pow_le_pow_left₀ (betaOf_pos (by linarith) t1).le (beta_le (by linarith) t1 hβ' hq') 4

theorem le_psat' {T : ℝ} {Tk β : ℚ} (h0 : (165 : ℝ) ≤ Tk) (h : (Tk : ℝ) ≤ T) (h1 : T ≤ 647.096) (hβ : 0 ≤ β) (hβ2 : β ≤ 2.2)
    (hq : 0 ≤ eqQ β (thQ Tk)) : (β : ℝ) ^ 4 ≤ psat T := by
  refine le_trans ?_ (psat_mono' h0 h (by linarith))
  have g : (Tk : ℝ) < n10 := by norm_num [n10] at h1 ⊢; linarith
  have t0 := theta_gt g
  have t1 := theta_le (T := (Tk : ℝ)) (by linarith)
  have hq' : 0 ≤ eq29 β (theta Tk) := by
    rw [← thQ_cast, ← eqQ_cast]; exact_mod_cast hq
  have hβ' : (0 : ℝ) ≤ β := by exact_mod_cast hβ
  have hβ2' : (β : ℝ) ≤ 2.2 := by
    have : ((β : ℚ) : ℝ) ≤ ((2.2 : ℚ) : ℝ) := by exact_mod_cast hβ2
    norm_num at this ⊢; exact this
  exact pow_le_pow_left₀ hβ' (le_beta (by linarith) t1 hβ' hβ2' hq') 4

/-- the ends of the intervals -/
def Tq (k : ℕ) : ℚ := 623.15 + k * (23.946 / 600)

theorem Tq_real (k : ℕ) : (Tq k : ℝ) = 623.15 + k * (23.946 / 600) := by
  rw [Tq]; push_cast; norm_num

def lowQ (T : ℚ) : ℚ := (-18917017 / 10000) * (T / 1000) ^ 0 + (749301 / 80) * (T / 1000) ^ 1 + (-7822609 / 500) * (T / 1000) ^ 2 + (11090403 / 1250) * (T / 1000) ^ 3
def highQ (T : ℚ) : ℚ := (-18916717 / 10000) * (T / 1000) ^ 0 + (749301 / 80) * (T / 1000) ^ 1 + (-7822609 / 500) * (T / 1000) ^ 2 + (11090403 / 1250) * (T / 1000) ^ 3

theorem lowQ_cast (T : ℚ) : (lowQ T : ℝ) = low T := by rw [lowQ, low]; push_cast; rfl
theorem highQ_cast (T : ℚ) : (highQ T : ℝ) = high T := by rw [highQ, high]; push_cast; rfl

theorem cubic_mono {a b : ℝ} (h0 : 0.62315 ≤ a) (h : a ≤ b) :
    (749301 / 80) * a + (-7822609 / 500) * a ^ 2 + (11090403 / 1250) * a ^ 3 ≤
      (749301 / 80) * b + (-7822609 / 500) * b ^ 2 + (11090403 / 1250) * b ^ 3 := by
  have h1 : 0 ≤ (749301 / 80) + (-7822609 / 500) * (a + b) + (11090403 / 1250) * (a ^ 2 + a * b + b ^ 2) := by
    have h2 : 0 ≤ (a + b - 1.2463) * (a + b - 1.2463) := mul_self_nonneg _
    nlinarith [mul_self_nonneg (a - b)]
  have h3 := mul_nonneg (sub_nonneg.2 h) h1
  linarith

theorem low_mono {a b : ℝ} (h0 : 623.15 ≤ a) (h : a ≤ b) : low a ≤ low b := by
  have := cubic_mono (a := a / 1000) (b := b / 1000) (by norm_num; linarith) (by linarith)
  simp only [low, pow_zero, pow_one]
  linarith

theorem high_mono {a b : ℝ} (h0 : 623.15 ≤ a) (h : a ≤ b) : high a ≤ high b := by
  have := cubic_mono (a := a / 1000) (b := b / 1000) (by norm_num; linarith) (by linarith)
  simp only [high, pow_zero, pow_one]
  linarith

/-- fourth roots of pressures below saturation at the lower ends, times `10⁸` -/
def betaL : List ℕ :=
  [201633515, 201658210, 201682906, 201707603, 201732301, 201757001, 201781701, 201806402, 201831104, 201855808,
    201880512, 201905217, 201929924, 201954631, 201979340, 202004049, 202028760, 202053471, 202078184, 202102897,
    202127612, 202152328, 202177044, 202201762, 202226481, 202251201, 202275922, 202300644, 202325367, 202350091,
    202374816, 202399542, 202424269, 202448998, 202473727, 202498457, 202523189, 202547921, 202572655, 202597390,
    202622125, 202646862, 202671600, 202696339, 202721079, 202745820, 202770563, 202795306, 202820050, 202844796,
    202869542, 202894290, 202919039, 202943789, 202968539, 202993291, 203018045, 203042799, 203067554, 203092310,
    203117068, 203141827, 203166586, 203191347, 203216109, 203240872, 203265636, 203290402, 203315168, 203339936,
    203364704, 203389474, 203414245, 203439017, 203463790, 203488564, 203513340, 203538116, 203562894, 203587672,
    203612452, 203637233, 203662016, 203686799, 203711583, 203736369, 203761156, 203785944, 203810733, 203835523,
    203860314, 203885107, 203909901, 203934696, 203959492, 203984289, 204009087, 204033887, 204058687, 204083489,
    204108292, 204133096, 204157902, 204182708, 204207516, 204232325, 204257135, 204281946, 204306759, 204331572,
    204356387, 204381203, 204406020, 204430839, 204455658, 204480479, 204505301, 204530124, 204554949, 204579774,
    204604601, 204629429, 204654259, 204679089, 204703921, 204728754, 204753588, 204778423, 204803260, 204828097,
    204852936, 204877777, 204902618, 204927461, 204952305, 204977150, 205001996, 205026844, 205051693, 205076543,
    205101394, 205126247, 205151101, 205175956, 205200813, 205225670, 205250529, 205275389, 205300251, 205325114,
    205349977, 205374843, 205399709, 205424577, 205449446, 205474316, 205499188, 205524061, 205548935, 205573811,
    205598687, 205623565, 205648445, 205673325, 205698207, 205723091, 205747975, 205772861, 205797748, 205822636,
    205847526, 205872417, 205897310, 205922203, 205947098, 205971995, 205996892, 206021791, 206046692, 206071593,
    206096496, 206121400, 206146306, 206171213, 206196121, 206221031, 206245942, 206270854, 206295768, 206320683,
    206345599, 206370517, 206395436, 206420356, 206445278, 206470201, 206495126, 206520052, 206544979, 206569908,
    206594838, 206619769, 206644702, 206669636, 206694572, 206719509, 206744447, 206769387, 206794328, 206819270,
    206844214, 206869159, 206894106, 206919054, 206944004, 206968955, 206993907, 207018861, 207043816, 207068773,
    207093731, 207118690, 207143651, 207168613, 207193577, 207218542, 207243509, 207268477, 207293446, 207318417,
    207343389, 207368363, 207393339, 207418315, 207443294, 207468273, 207493254, 207518237, 207543221, 207568207,
    207593194, 207618182, 207643172, 207668163, 207693156, 207718151, 207743147, 207768144, 207793143, 207818143,
    207843145, 207868149, 207893154, 207918160, 207943168, 207968177, 207993188, 208018201, 208043215, 208068230,
    208093247, 208118266, 208143286, 208168308, 208193331, 208218356, 208243382, 208268410, 208293439, 208318470,
    208343503, 208368537, 208393572, 208418609, 208443648, 208468689, 208493730, 208518774, 208543819, 208568866,
    208593914, 208618964, 208644015, 208669068, 208694123, 208719179, 208744237, 208769296, 208794357, 208819420,
    208844484, 208869550, 208894618, 208919687, 208944758, 208969830, 208994904, 209019980, 209045057, 209070136,
    209095217, 209120299, 209145383, 209170469, 209195556, 209220645, 209245736, 209270828, 209295922, 209321018,
    209346115, 209371214, 209396315, 209421418, 209446522, 209471628, 209496735, 209521845, 209546956, 209572068,
    209597183, 209622299, 209647417, 209672536, 209697658, 209722781, 209747906, 209773032, 209798161, 209823291,
    209848423, 209873556, 209898692, 209923829, 209948968, 209974109, 209999251, 210024396, 210049542, 210074690,
    210099839, 210124991, 210150144, 210175299, 210200456, 210225615, 210250776, 210275938, 210301103, 210326269,
    210351437, 210376606, 210401778, 210426952, 210452127, 210477304, 210502483, 210527664, 210552847, 210578032,
    210603219, 210628407, 210653598, 210678790, 210703985, 210729181, 210754379, 210779579, 210804781, 210829985,
    210855191, 210880398, 210905608, 210930820, 210956034, 210981249, 211006467, 211031686, 211056908, 211082131,
    211107357, 211132584, 211157814, 211183046, 211208279, 211233515, 211258752, 211283992, 211309234, 211334477,
    211359723, 211384971, 211410221, 211435473, 211460727, 211485983, 211511241, 211536502, 211561764, 211587029,
    211612295, 211637564, 211662835, 211688108, 211713383, 211738660, 211763940, 211789221, 211814505, 211839791,
    211865079, 211890369, 211915662, 211940957, 211966254, 211991553, 212016854, 212042158, 212067464, 212092772,
    212118082, 212143395, 212168710, 212194027, 212219346, 212244668, 212269992, 212295319, 212320647, 212345978,
    212371312, 212396648, 212421986, 212447326, 212472669, 212498014, 212523362, 212548712, 212574065, 212599419,
    212624777, 212650137, 212675499, 212700864, 212726231, 212751600, 212776973, 212802347, 212827725, 212853104,
    212878487, 212903872, 212929259, 212954649, 212980042, 213005437, 213030835, 213056235, 213081638, 213107044,
    213132452, 213157863, 213183277, 213208694, 213234113, 213259535, 213284960, 213310387, 213335817, 213361251,
    213386686, 213412125, 213437567, 213463011, 213488458, 213513909, 213539362, 213564818, 213590277, 213615739,
    213641203, 213666671, 213692142, 213717616, 213743093, 213768573, 213794056, 213819543, 213845032, 213870525,
    213896020, 213921519, 213947022, 213972527, 213998036, 214023548, 214049063, 214074582, 214100104, 214125629,
    214151158, 214176690, 214202226, 214227765, 214253308, 214278854, 214304404, 214329957, 214355515, 214381075,
    214406640, 214432208, 214457780, 214483356, 214508936, 214534519, 214560107, 214585698, 214611294, 214636893,
    214662497, 214688104, 214713716, 214739332, 214764952, 214790577, 214816206, 214841839, 214867477, 214893119,
    214918765, 214944417, 214970072, 214995733, 215021398, 215047068, 215072743, 215098423, 215124108, 215149798,
    215175493, 215201193, 215226899, 215252610, 215278326, 215304048, 215329775, 215355508, 215381246, 215406991,
    215432741, 215458497, 215484260, 215510028, 215535803, 215561584, 215587372, 215613166, 215638967, 215664775,
    215690590, 215716412, 215742241, 215768077, 215793921, 215819772, 215845632, 215871499, 215897374, 215923257,
    215949149, 215975050, 216000959, 216026877, 216052804, 216078741, 216104687, 216130643, 216156609, 216182585,
    216208572, 216234570, 216260579, 216286598, 216312630, 216338674, 216364729, 216390798, 216416879, 216442973,
    216469081, 216495204, 216521340, 216547492, 216573659, 216599842, 216626041, 216652257, 216678491, 216704742]

/-- fourth roots of pressures above saturation at the upper ends, times `10⁸` -/
def betaH : List ℕ :=
  [201658213, 201682909, 201707606, 201732304, 201757004, 201781704, 201806405, 201831107, 201855811, 201880515,
    201905220, 201929927, 201954634, 201979343, 202004052, 202028763, 202053474, 202078187, 202102900, 202127615,
    202152331, 202177047, 202201765, 202226484, 202251204, 202275925, 202300647, 202325370, 202350094, 202374819,
    202399545, 202424272, 202449001, 202473730, 202498460, 202523192, 202547924, 202572658, 202597393, 202622128,
    202646865, 202671603, 202696342, 202721082, 202745823, 202770566, 202795309, 202820053, 202844799, 202869545,
    202894293, 202919042, 202943792, 202968542, 202993294, 203018048, 203042802, 203067557, 203092313, 203117071,
    203141830, 203166589, 203191350, 203216112, 203240875, 203265639, 203290405, 203315171, 203339939, 203364707,
    203389477, 203414248, 203439020, 203463793, 203488567, 203513343, 203538119, 203562897, 203587675, 203612455,
    203637236, 203662019, 203686802, 203711586, 203736372, 203761159, 203785947, 203810736, 203835526, 203860317,
    203885110, 203909904, 203934699, 203959495, 203984292, 204009090, 204033890, 204058690, 204083492, 204108295,
    204133099, 204157905, 204182711, 204207519, 204232328, 204257138, 204281949, 204306762, 204331575, 204356390,
    204381206, 204406023, 204430842, 204455661, 204480482, 204505304, 204530127, 204554952, 204579777, 204604604,
    204629432, 204654262, 204679092, 204703924, 204728757, 204753591, 204778426, 204803263, 204828100, 204852939,
    204877780, 204902621, 204927464, 204952308, 204977153, 205001999, 205026847, 205051696, 205076546, 205101397,
    205126250, 205151104, 205175959, 205200816, 205225673, 205250532, 205275392, 205300254, 205325117, 205349980,
    205374846, 205399712, 205424580, 205449449, 205474319, 205499191, 205524064, 205548938, 205573814, 205598690,
    205623568, 205648448, 205673328, 205698210, 205723094, 205747978, 205772864, 205797751, 205822639, 205847529,
    205872420, 205897313, 205922206, 205947101, 205971998, 205996895, 206021794, 206046695, 206071596, 206096499,
    206121403, 206146309, 206171216, 206196124, 206221034, 206245945, 206270857, 206295771, 206320686, 206345602,
    206370520, 206395439, 206420359, 206445281, 206470204, 206495129, 206520055, 206544982, 206569911, 206594841,
    206619772, 206644705, 206669639, 206694575, 206719512, 206744450, 206769390, 206794331, 206819273, 206844217,
    206869162, 206894109, 206919057, 206944007, 206968958, 206993910, 207018864, 207043819, 207068776, 207093734,
    207118693, 207143654, 207168616, 207193580, 207218545, 207243512, 207268480, 207293449, 207318420, 207343392,
    207368366, 207393342, 207418318, 207443297, 207468276, 207493257, 207518240, 207543224, 207568210, 207593197,
    207618185, 207643175, 207668166, 207693159, 207718154, 207743150, 207768147, 207793146, 207818146, 207843148,
    207868152, 207893157, 207918163, 207943171, 207968180, 207993191, 208018204, 208043218, 208068233, 208093250,
    208118269, 208143289, 208168311, 208193334, 208218359, 208243385, 208268413, 208293442, 208318473, 208343506,
    208368540, 208393575, 208418612, 208443651, 208468692, 208493733, 208518777, 208543822, 208568869, 208593917,
    208618967, 208644018, 208669071, 208694126, 208719182, 208744240, 208769299, 208794360, 208819423, 208844487,
    208869553, 208894621, 208919690, 208944761, 208969833, 208994907, 209019983, 209045060, 209070139, 209095220,
    209120302, 209145386, 209170472, 209195559, 209220648, 209245739, 209270831, 209295925, 209321021, 209346118,
    209371217, 209396318, 209421421, 209446525, 209471631, 209496738, 209521848, 209546959, 209572071, 209597186,
    209622302, 209647420, 209672539, 209697661, 209722784, 209747909, 209773035, 209798164, 209823294, 209848426,
    209873559, 209898695, 209923832, 209948971, 209974112, 209999254, 210024399, 210049545, 210074693, 210099842,
    210124994, 210150147, 210175302, 210200459, 210225618, 210250779, 210275941, 210301106, 210326272, 210351440,
    210376609, 210401781, 210426955, 210452130, 210477307, 210502486, 210527667, 210552850, 210578035, 210603222,
    210628410, 210653601, 210678793, 210703988, 210729184, 210754382, 210779582, 210804784, 210829988, 210855194,
    210880401, 210905611, 210930823, 210956037, 210981252, 211006470, 211031689, 211056911, 211082134, 211107360,
    211132587, 211157817, 211183049, 211208282, 211233518, 211258755, 211283995, 211309237, 211334480, 211359726,
    211384974, 211410224, 211435476, 211460730, 211485986, 211511244, 211536505, 211561767, 211587032, 211612298,
    211637567, 211662838, 211688111, 211713386, 211738663, 211763943, 211789224, 211814508, 211839794, 211865082,
    211890372, 211915665, 211940960, 211966257, 211991556, 212016857, 212042161, 212067467, 212092775, 212118085,
    212143398, 212168713, 212194030, 212219349, 212244671, 212269995, 212295322, 212320650, 212345981, 212371315,
    212396651, 212421989, 212447329, 212472672, 212498017, 212523365, 212548715, 212574068, 212599422, 212624780,
    212650140, 212675502, 212700867, 212726234, 212751603, 212776976, 212802350, 212827728, 212853107, 212878490,
    212903875, 212929262, 212954652, 212980045, 213005440, 213030838, 213056238, 213081641, 213107047, 213132455,
    213157866, 213183280, 213208697, 213234116, 213259538, 213284963, 213310390, 213335820, 213361254, 213386689,
    213412128, 213437570, 213463014, 213488461, 213513912, 213539365, 213564821, 213590280, 213615742, 213641206,
    213666674, 213692145, 213717619, 213743096, 213768576, 213794059, 213819546, 213845035, 213870528, 213896023,
    213921522, 213947025, 213972530, 213998039, 214023551, 214049066, 214074585, 214100107, 214125632, 214151161,
    214176693, 214202229, 214227768, 214253311, 214278857, 214304407, 214329960, 214355518, 214381078, 214406643,
    214432211, 214457783, 214483359, 214508939, 214534522, 214560110, 214585701, 214611297, 214636896, 214662500,
    214688107, 214713719, 214739335, 214764955, 214790580, 214816209, 214841842, 214867480, 214893122, 214918768,
    214944420, 214970075, 214995736, 215021401, 215047071, 215072746, 215098426, 215124111, 215149801, 215175496,
    215201196, 215226902, 215252613, 215278329, 215304051, 215329778, 215355511, 215381249, 215406994, 215432744,
    215458500, 215484263, 215510031, 215535806, 215561587, 215587375, 215613169, 215638970, 215664778, 215690593,
    215716415, 215742244, 215768080, 215793924, 215819775, 215845635, 215871502, 215897377, 215923260, 215949152,
    215975053, 216000962, 216026880, 216052807, 216078744, 216104690, 216130646, 216156612, 216182588, 216208575,
    216234573, 216260582, 216286601, 216312633, 216338677, 216364732, 216390801, 216416882, 216442976, 216469084,
    216495207, 216521343, 216547495, 216573662, 216599845, 216626044, 216652260, 216678494, 216704745, 216731015]

def checkL : ℕ → List ℕ → Bool
  | _, [] => true
  | k, b :: bs => decide (b ≤ 220000000) && decide (0 ≤ eqQ (b / 100000000) (thQ (Tq k))) &&
      decide (lowQ (Tq (k + 1)) ≤ ((b : ℚ) / 100000000) ^ 4) && checkL (k + 1) bs

def checkH : ℕ → List ℕ → Bool
  | _, [] => true
  | k, b :: bs => decide (eqQ (b / 100000000) (thQ (Tq (k + 1))) ≤ 0) &&
      decide (((b : ℚ) / 100000000) ^ 4 ≤ highQ (Tq k)) && checkH (k + 1) bs

theorem checkL_sound {k : ℕ} {bs : List ℕ} (h : checkL k bs = true) {T : ℝ} (h0 : (Tq k : ℝ) ≤ T)
    (h1 : T ≤ Tq (k + bs.length)) (h2 : T ≤ 647.096) : low T ≤ psat T ∨ T = Tq (k + bs.length) := by
  induction bs generalizing k with
  | nil => exact .inr (le_antisymm h1 h0)
  | cons b bs ih =>
    simp only [checkL, Bool.and_eq_true, decide_eq_true_eq] at h
    obtain ⟨⟨⟨hb, hq⟩, hl⟩, h⟩ := h
    have t0 : (623.15 : ℝ) ≤ Tq k := by
      rw [Tq_real]; have : (0 : ℝ) ≤ k * (23.946 / 600) := by positivity
      linarith
    rcases le_total T (Tq (k + 1)) with hT | hT
    · left
      have hb' : ((b : ℚ) / 100000000) ≤ 2.2 := by
        rw [div_le_iff₀ (by norm_num)]
        have : (b : ℚ) ≤ 220000000 := by exact_mod_cast hb
        norm_num; linarith
      have a := le_psat' (by linarith) h0 h2 (by positivity) hb' hq
      have c : low (Tq (k + 1)) ≤ (((b : ℚ) / 100000000 : ℚ) : ℝ) ^ 4 := by
        rw [← lowQ_cast]; exact_mod_cast hl
      exact ((low_mono (by linarith) hT).trans c).trans a
    · rw [List.length_cons] at h1 ⊢
      have e : k + (bs.length + 1) = k + 1 + bs.length := by omega
      rw [e] at h1 ⊢
      exact ih h hT h1

theorem checkH_sound {k : ℕ} {bs : List ℕ} (h : checkH k bs = true) {T : ℝ} (h0 : (Tq k : ℝ) ≤ T)
    (h1 : T < Tq (k + bs.length)) (hn : (Tq (k + bs.length) : ℝ) ≤ 647.096) : psat T ≤ high T := by
  induction bs generalizing k with
  | nil => exact absurd h0 (not_le.2 h1)
  | cons b bs ih =>
    simp only [checkH, Bool.and_eq_true, decide_eq_true_eq] at h
    obtain ⟨⟨hq, hl⟩, h⟩ := h
    have t0 : (623.15 : ℝ) ≤ Tq k := by
      rw [Tq_real]; have : (0 : ℝ) ≤ k * (23.946 / 600) := by positivity
      linarith
    rw [List.length_cons] at h1 hn
    have e : k + (bs.length + 1) = k + 1 + bs.length := by omega
    rw [e] at h1 hn
    rcases le_total T (Tq (k + 1)) with hT | hT
    · have u : (Tq (k + 1) : ℝ) ≤ 647.096 := by
        refine le_trans ?_ hn
        rw [Tq_real, Tq_real]; push_cast
        have : (0 : ℝ) ≤ bs.length * (23.946 / 600) := by positivity
        linarith
      have a := psat_le' (by linarith) hT u (by positivity) hq
      have c : (((b : ℚ) / 100000000 : ℚ) : ℝ) ^ 4 ≤ high (Tq k) := by
        rw [← highQ_cast]; exact_mod_cast hl
      exact (a.trans c).trans (high_mono t0 h0)
    · exact ih h hT h1 hn

theorem checkedL : checkL 0 betaL = true := by decide +kernel
theorem checkedH : checkH 0 betaH = true := by decide +kernel

theorem lengthL : betaL.length = 600 := by decide +kernel
theorem lengthH : betaH.length = 600 := by decide +kernel

theorem low_le {T : ℝ} (h0 : 623.15 ≤ T) (h1 : T < 647.096) : low T ≤ psat T := by
  refine (checkL_sound checkedL (T := T) ?_ ?_ h1.le).resolve_right ?_
  · rw [Tq_real]; norm_num at h0 ⊢; linarith
  · rw [lengthL, Tq_real]; norm_num at h1 ⊢; linarith
  · rw [lengthL, Tq_real]; norm_num at h1 ⊢; linarith

theorem le_high {T : ℝ} (h0 : 623.15 ≤ T) (h1 : T < 647.096) : psat T ≤ high T := by
  refine checkH_sound checkedH (T := T) ?_ ?_ ?_
  · rw [Tq_real]; norm_num at h0 ⊢; linarith
  · rw [lengthH, Tq_real]; norm_num at h1 ⊢; linarith
  · rw [lengthH, Tq_real]; norm_num

end PyX.Kron.B3
