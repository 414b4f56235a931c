import Verif.Lemmas.Comp3
import Verif.Lemmas.KronSat
import Verif.Lemmas.GammaDefs

/-!
# Region 3 in the coordinates of the checker of the backward equations

`x = ρ/322` and `y = 647.096/T`.
-/

namespace PyX.Kron.B3

open Spec Spec.IF97 Spec.Sat

/-- pressure in MPa -/
noncomputable def P (x y : ℝ) : ℝ := 322 * 0.461526 * 647.096 / 1000 * (x * (region3Log + x * dpoly region3 1 0 x y)) / y

/-- enthalpy in kJ/kg -/
noncomputable def H (x y : ℝ) : ℝ :=
  0.461526 * 647.096 * (region3Log + x * dpoly region3 1 0 x y + y * dpoly region3 0 1 x y) / y

/-- `K x² φ_x + c y` for the Helmholtz function, `K` the first argument -/
def tabP (K c : ℚ) : List Term := ⟨1, 0, K * region3Log⟩ :: ⟨0, 1, c⟩ :: region3.map fun t => ⟨t.I + 1, t.J, K * t.I * t.n⟩

/-- `K (x φ_x + y φ_y) + c y` -/
def tabH (K c : ℚ) : List Term := ⟨0, 0, K * region3Log⟩ :: ⟨0, 1, c⟩ :: region3.map fun t => ⟨t.I, t.J, K * (t.I + t.J) * t.n⟩

theorem dpoly_cons (t : Term) (ts : List Term) (k l : ℕ) (x y : ℝ) :
    dpoly (t :: ts) k l x y = Term.d t k l x y + dpoly ts k l x y := by simp [dpoly]

theorem dpoly_mapP (ts : List Term) (K : ℚ) {x : ℝ} (hx : x ≠ 0) (y : ℝ) :
    dpoly (ts.map fun t => ⟨t.I + 1, t.J, K * t.I * t.n⟩) 0 0 x y = K * (x * (x * dpoly ts 1 0 x y)) := by
  induction ts with
  | nil => simp [dpoly]
  | cons t ts ih =>
    rw [List.map_cons, dpoly_cons, dpoly_cons, ih]
    simp only [Term.d, ff, Nat.cast_zero, sub_zero, Nat.cast_one, one_mul]
    rw [zpow_add_one₀ hx, zpow_sub_one₀ hx]
    push_cast
    field_simp

theorem dpoly_mapH (ts : List Term) (K : ℚ) {x y : ℝ} (hx : x ≠ 0) (hy : y ≠ 0) :
    dpoly (ts.map fun t => ⟨t.I, t.J, K * (t.I + t.J) * t.n⟩) 0 0 x y =
      K * (x * dpoly ts 1 0 x y + y * dpoly ts 0 1 x y) := by
  induction ts with
  | nil => simp [dpoly]
  | cons t ts ih =>
    rw [List.map_cons, dpoly_cons, dpoly_cons, dpoly_cons, ih]
    simp only [Term.d, ff, Nat.cast_zero, sub_zero, Nat.cast_one, one_mul]
    rw [zpow_sub_one₀ hx, zpow_sub_one₀ hy]
    push_cast
    field_simp
    ring

theorem tabP_eq (K c : ℚ) {x : ℝ} (hx : x ≠ 0) (y : ℝ) :
    dpoly (tabP K c) 0 0 x y = K * (x * (region3Log + x * dpoly region3 1 0 x y)) + c * y := by
  rw [tabP, dpoly_cons, dpoly_cons, dpoly_mapP _ _ hx]
  simp only [Term.d, ff, Nat.cast_zero, sub_zero, one_mul, zpow_zero, zpow_one, mul_one]
  push_cast
  ring

theorem tabH_eq (K c : ℚ) {x y : ℝ} (hx : x ≠ 0) (hy : y ≠ 0) :
    dpoly (tabH K c) 0 0 x y = K * (region3Log + x * dpoly region3 1 0 x y + y * dpoly region3 0 1 x y) + c * y := by
  rw [tabH, dpoly_cons, dpoly_cons, dpoly_mapH _ _ hx hy]
  simp only [Term.d, ff, Nat.cast_zero, sub_zero, one_mul, zpow_zero, zpow_one, mul_one]
  push_cast
  ring

theorem quot_tab {D : ℕ} (hD : 0 < D) {t : List Term} {pos neg : List Mono} (h : same D 0 0 0 0 t pos neg = true) (KX KY : ℕ)
    {x y : ℝ} (hy : y ≠ 0) : (⟨.mono pos neg KX KY, [(D, 0, 1)], 0, 1⟩ : Quot).eval x y = dpoly t 0 0 x y / y := by
  have e := same_eq0 h x y
  simp only [Quot.eval, E.eval, evalN_cons', evalN_nil']
  rw [e]
  have : (D : ℝ) ≠ 0 := by positivity
  push_cast
  field_simp
  ring

variable {x y : ℝ}

def qpP : List Mono :=
  [(640588806591263091415422660000, 1, 0), (532043698084412626591755276000, 2, 15), (462719416490608180694816844000,
    3, 0), (5886824782542582567887114280000, 3, 6), (47386355328962519810458845600, 3, 22),
    (150961212371308149463200912000, 3, 26), (2506285657976789307901791600000, 4, 2),
    (105744119528670956314690800000, 5, 0), (2177484461544602709811081224000, 5, 4),
    (1695462387426087451814564376000, 5, 26), (323673508018822411697640120000, 6, 1),
    (339924858380543990452614206400, 7, 2), (592728099981344149914121212000, 7, 26), (3133242329580470337036016392,
    10, 2), (17476945062236366495088753180, 10, 26), (486627939096758276217120630, 11, 0)]

def qpN : List Mono :=
  [(760570424890436639436801480000, 2, 2), (692658860732105860004832420000, 2, 6), (385912041875710916942495574000,
    2, 17), (1024342840377003727188010584000, 3, 2), (3666636667666072873761042600000, 3, 7),
    (504858491708213071275324660000, 4, 0), (3640462166844715921904122200000, 4, 4), (14812116092533193059529974980,
    4, 16), (858208502524634559298385658000, 4, 26), (1069278269574452430934596792000, 5, 2),
    (989114285590287503113789140000, 6, 3), (1528768005642484201812360780000, 6, 26), (79969338968368518147624163200,
    7, 0), (56812127900558462350333615200, 8, 2), (71327852494724093899798003200, 9, 26),
    (995176829524252004150588340, 11, 1), (297009885387236613272493813, 12, 26)]

theorem qp_same : same ((625000000000000000000000000000 : ℕ) : ℤ) 0 0 0 0 (tabP (3005182011741 / 3125000000000) (0 / 1)) qpP qpN = true := by decide +kernel

/-- `P x y / 100` -/
def qp : Quot := ⟨.mono qpP qpN 12 26, [(625000000000000000000000000000, 0, 1)], 0, 1⟩

theorem qp_eval (hx : x ≠ 0) (hy : y ≠ 0) : qp.eval x y = P x y / 100 := by
  rw [qp, quot_tab (by norm_num) qp_same _ _ hy, tabP_eq _ _ hx, P]
  push_cast
  field_simp
  ring

def qpTaP : List Mono :=
  [(640588806591263091415422660000, 1, 0), (150000000000000000000000000000, 0, 1), (532043698084412626591755276000,
    2, 15), (462719416490608180694816844000, 3, 0), (5886824782542582567887114280000, 3, 6),
    (47386355328962519810458845600, 3, 22), (150961212371308149463200912000, 3, 26),
    (2506285657976789307901791600000, 4, 2), (105744119528670956314690800000, 5, 0),
    (2177484461544602709811081224000, 5, 4), (1695462387426087451814564376000, 5, 26),
    (323673508018822411697640120000, 6, 1), (339924858380543990452614206400, 7, 2), (592728099981344149914121212000,
    7, 26), (3133242329580470337036016392, 10, 2), (17476945062236366495088753180, 10, 26),
    (486627939096758276217120630, 11, 0)]

def qpTaN : List Mono :=
  [(760570424890436639436801480000, 2, 2), (692658860732105860004832420000, 2, 6), (385912041875710916942495574000,
    2, 17), (1024342840377003727188010584000, 3, 2), (3666636667666072873761042600000, 3, 7),
    (504858491708213071275324660000, 4, 0), (3640462166844715921904122200000, 4, 4), (14812116092533193059529974980,
    4, 16), (858208502524634559298385658000, 4, 26), (1069278269574452430934596792000, 5, 2),
    (989114285590287503113789140000, 6, 3), (1528768005642484201812360780000, 6, 26), (79969338968368518147624163200,
    7, 0), (56812127900558462350333615200, 8, 2), (71327852494724093899798003200, 9, 26),
    (995176829524252004150588340, 11, 1), (297009885387236613272493813, 12, 26)]

theorem qpTa_same : same ((625000000000000000000000000000 : ℕ) : ℤ) 0 0 0 0 (tabP (3005182011741 / 3125000000000) (6 / 25)) qpTaP qpTaN = true := by decide +kernel

/-- `P x y / 100 + 6 / 25` -/
def qpTa : Quot := ⟨.mono qpTaP qpTaN 12 26, [(625000000000000000000000000000, 0, 1)], 0, 1⟩

theorem qpTa_eval (hx : x ≠ 0) (hy : y ≠ 0) : qpTa.eval x y = P x y / 100 + 6 / 25 := by
  rw [qpTa, quot_tab (by norm_num) qpTa_same _ _ hy, tabP_eq _ _ hx, P]
  push_cast
  field_simp
  ring

def qpTbP : List Mono :=
  [(640588806591263091415422660000, 1, 0), (186250000000000000000000000000, 0, 1), (532043698084412626591755276000,
    2, 15), (462719416490608180694816844000, 3, 0), (5886824782542582567887114280000, 3, 6),
    (47386355328962519810458845600, 3, 22), (150961212371308149463200912000, 3, 26),
    (2506285657976789307901791600000, 4, 2), (105744119528670956314690800000, 5, 0),
    (2177484461544602709811081224000, 5, 4), (1695462387426087451814564376000, 5, 26),
    (323673508018822411697640120000, 6, 1), (339924858380543990452614206400, 7, 2), (592728099981344149914121212000,
    7, 26), (3133242329580470337036016392, 10, 2), (17476945062236366495088753180, 10, 26),
    (486627939096758276217120630, 11, 0)]

def qpTbN : List Mono :=
  [(760570424890436639436801480000, 2, 2), (692658860732105860004832420000, 2, 6), (385912041875710916942495574000,
    2, 17), (1024342840377003727188010584000, 3, 2), (3666636667666072873761042600000, 3, 7),
    (504858491708213071275324660000, 4, 0), (3640462166844715921904122200000, 4, 4), (14812116092533193059529974980,
    4, 16), (858208502524634559298385658000, 4, 26), (1069278269574452430934596792000, 5, 2),
    (989114285590287503113789140000, 6, 3), (1528768005642484201812360780000, 6, 26), (79969338968368518147624163200,
    7, 0), (56812127900558462350333615200, 8, 2), (71327852494724093899798003200, 9, 26),
    (995176829524252004150588340, 11, 1), (297009885387236613272493813, 12, 26)]

theorem qpTb_same : same ((625000000000000000000000000000 : ℕ) : ℤ) 0 0 0 0 (tabP (3005182011741 / 3125000000000) (149 / 500)) qpTbP qpTbN = true := by decide +kernel

/-- `P x y / 100 + 149 / 500` -/
def qpTb : Quot := ⟨.mono qpTbP qpTbN 12 26, [(625000000000000000000000000000, 0, 1)], 0, 1⟩

theorem qpTb_eval (hx : x ≠ 0) (hy : y ≠ 0) : qpTb.eval x y = P x y / 100 + 149 / 500 := by
  rw [qpTb, quot_tab (by norm_num) qpTb_same _ _ hy, tabP_eq _ _ hx, P]
  push_cast
  field_simp
  ring

def qpVaP : List Mono :=
  [(640588806591263091415422660000, 1, 0), (80000000000000000000000000000, 0, 1), (532043698084412626591755276000, 2,
    15), (462719416490608180694816844000, 3, 0), (5886824782542582567887114280000, 3, 6),
    (47386355328962519810458845600, 3, 22), (150961212371308149463200912000, 3, 26),
    (2506285657976789307901791600000, 4, 2), (105744119528670956314690800000, 5, 0),
    (2177484461544602709811081224000, 5, 4), (1695462387426087451814564376000, 5, 26),
    (323673508018822411697640120000, 6, 1), (339924858380543990452614206400, 7, 2), (592728099981344149914121212000,
    7, 26), (3133242329580470337036016392, 10, 2), (17476945062236366495088753180, 10, 26),
    (486627939096758276217120630, 11, 0)]

def qpVaN : List Mono :=
  [(760570424890436639436801480000, 2, 2), (692658860732105860004832420000, 2, 6), (385912041875710916942495574000,
    2, 17), (1024342840377003727188010584000, 3, 2), (3666636667666072873761042600000, 3, 7),
    (504858491708213071275324660000, 4, 0), (3640462166844715921904122200000, 4, 4), (14812116092533193059529974980,
    4, 16), (858208502524634559298385658000, 4, 26), (1069278269574452430934596792000, 5, 2),
    (989114285590287503113789140000, 6, 3), (1528768005642484201812360780000, 6, 26), (79969338968368518147624163200,
    7, 0), (56812127900558462350333615200, 8, 2), (71327852494724093899798003200, 9, 26),
    (995176829524252004150588340, 11, 1), (297009885387236613272493813, 12, 26)]

theorem qpVa_same : same ((625000000000000000000000000000 : ℕ) : ℤ) 0 0 0 0 (tabP (3005182011741 / 3125000000000) (16 / 125)) qpVaP qpVaN = true := by decide +kernel

/-- `P x y / 100 + 16 / 125` -/
def qpVa : Quot := ⟨.mono qpVaP qpVaN 12 26, [(625000000000000000000000000000, 0, 1)], 0, 1⟩

theorem qpVa_eval (hx : x ≠ 0) (hy : y ≠ 0) : qpVa.eval x y = P x y / 100 + 16 / 125 := by
  rw [qpVa, quot_tab (by norm_num) qpVa_same _ _ hy, tabP_eq _ _ hx, P]
  push_cast
  field_simp
  ring

def qpVbP : List Mono :=
  [(640588806591263091415422660000, 1, 0), (41312500000000000000000000000, 0, 1), (532043698084412626591755276000, 2,
    15), (462719416490608180694816844000, 3, 0), (5886824782542582567887114280000, 3, 6),
    (47386355328962519810458845600, 3, 22), (150961212371308149463200912000, 3, 26),
    (2506285657976789307901791600000, 4, 2), (105744119528670956314690800000, 5, 0),
    (2177484461544602709811081224000, 5, 4), (1695462387426087451814564376000, 5, 26),
    (323673508018822411697640120000, 6, 1), (339924858380543990452614206400, 7, 2), (592728099981344149914121212000,
    7, 26), (3133242329580470337036016392, 10, 2), (17476945062236366495088753180, 10, 26),
    (486627939096758276217120630, 11, 0)]

def qpVbN : List Mono :=
  [(760570424890436639436801480000, 2, 2), (692658860732105860004832420000, 2, 6), (385912041875710916942495574000,
    2, 17), (1024342840377003727188010584000, 3, 2), (3666636667666072873761042600000, 3, 7),
    (504858491708213071275324660000, 4, 0), (3640462166844715921904122200000, 4, 4), (14812116092533193059529974980,
    4, 16), (858208502524634559298385658000, 4, 26), (1069278269574452430934596792000, 5, 2),
    (989114285590287503113789140000, 6, 3), (1528768005642484201812360780000, 6, 26), (79969338968368518147624163200,
    7, 0), (56812127900558462350333615200, 8, 2), (71327852494724093899798003200, 9, 26),
    (995176829524252004150588340, 11, 1), (297009885387236613272493813, 12, 26)]

theorem qpVb_same : same ((625000000000000000000000000000 : ℕ) : ℤ) 0 0 0 0 (tabP (3005182011741 / 3125000000000) (661 / 10000)) qpVbP qpVbN = true := by decide +kernel

/-- `P x y / 100 + 661 / 10000` -/
def qpVb : Quot := ⟨.mono qpVbP qpVbN 12 26, [(625000000000000000000000000000, 0, 1)], 0, 1⟩

theorem qpVb_eval (hx : x ≠ 0) (hy : y ≠ 0) : qpVb.eval x y = P x y / 100 + 661 / 10000 := by
  rw [qpVb, quot_tab (by norm_num) qpVb_same _ _ hy, tabP_eq _ _ hx, P]
  push_cast
  field_simp
  ring

def qhP : List Mono :=
  [(3978812463299770754133060000, 0, 0), (78188478303043507763153400000, 0, 1), (68429164567607296179450360000, 0,
    7), (53996377330937090237226480000, 0, 12), (52873907884165229971851456000, 1, 15),
    (2874033642798808575744204000, 2, 0), (146256516336461678705269920000, 2, 6), (3531902260543790296431715200, 2,
    22), (13127061945331143431582688000, 2, 26), (25944986107420179170826000000, 3, 2), (656795773470005939842800000,
    4, 0), (27049496416703139252311568000, 4, 4), (78981167116122086264653620000, 4, 26),
    (2412473351693086298367504000, 5, 1), (2815112698803676939566163200, 6, 2), (19634885299589040162786624000, 6,
    26), (23785828588947669915387288, 9, 2), (422148431454984697949003700, 9, 26), (3022533783209678734267830, 10,
    0)]

def qhN : List Mono :=
  [(57391665341833357643727840000, 0, 2), (104829637743439255038444000000, 0, 10), (726110470441140955987388520, 0,
    23), (14172119718455341107518040000, 1, 2), (30115602640526341739340540000, 1, 6),
    (43145445675545319906614412000, 1, 17), (12724755781080791642087088000, 2, 2), (102483633568306384670339700000,
    2, 7), (3135767029243559448915060000, 3, 0), (52760321258619071331943800000, 3, 4), (582671233453686683501179140,
    3, 16), (51528046735433544968226054000, 3, 26), (9962219902867569232309908000, 4, 2),
    (9829707185990434813553184000, 5, 3), (58871811397412435100848676000, 5, 26), (496703968747630547500771200, 6,
    0), (453690462382454446453418400, 7, 2), (1882878093804828565677897600, 8, 26), (6799344797991783879289734, 10,
    1), (6205175471105451547759611, 11, 26)]

theorem qh_same : same ((25000000000000000000000000000 : ℕ) : ℤ) 0 0 0 0 (tabH (18665726781 / 125000000000) (0 / 1)) qhP qhN = true := by decide +kernel

/-- `H x y / 2000` -/
def qh : Quot := ⟨.mono qhP qhN 11 26, [(25000000000000000000000000000, 0, 1)], 0, 1⟩

theorem qh_eval (hx : x ≠ 0) (hy : y ≠ 0) : qh.eval x y = H x y / 2000 := by
  rw [qh, quot_tab (by norm_num) qh_same _ _ hy, tabH_eq _ _ hx hy, H]
  push_cast
  field_simp
  ring

def qhTaP : List Mono :=
  [(3978812463299770754133060000, 0, 0), (78188478303043507763153400000, 0, 1), (68429164567607296179450360000, 0,
    7), (53996377330937090237226480000, 0, 12), (52873907884165229971851456000, 1, 15),
    (2874033642798808575744204000, 2, 0), (146256516336461678705269920000, 2, 6), (3531902260543790296431715200, 2,
    22), (13127061945331143431582688000, 2, 26), (25944986107420179170826000000, 3, 2), (656795773470005939842800000,
    4, 0), (27049496416703139252311568000, 4, 4), (78981167116122086264653620000, 4, 26),
    (2412473351693086298367504000, 5, 1), (2815112698803676939566163200, 6, 2), (19634885299589040162786624000, 6,
    26), (23785828588947669915387288, 9, 2), (422148431454984697949003700, 9, 26), (3022533783209678734267830, 10,
    0)]

def qhTaN : List Mono :=
  [(17681250000000000000000000000, 0, 1), (57391665341833357643727840000, 0, 2), (104829637743439255038444000000, 0,
    10), (726110470441140955987388520, 0, 23), (14172119718455341107518040000, 1, 2), (30115602640526341739340540000,
    1, 6), (43145445675545319906614412000, 1, 17), (12724755781080791642087088000, 2, 2),
    (102483633568306384670339700000, 2, 7), (3135767029243559448915060000, 3, 0), (52760321258619071331943800000, 3,
    4), (582671233453686683501179140, 3, 16), (51528046735433544968226054000, 3, 26), (9962219902867569232309908000,
    4, 2), (9829707185990434813553184000, 5, 3), (58871811397412435100848676000, 5, 26),
    (496703968747630547500771200, 6, 0), (453690462382454446453418400, 7, 2), (1882878093804828565677897600, 8, 26),
    (6799344797991783879289734, 10, 1), (6205175471105451547759611, 11, 26)]

theorem qhTa_same : same ((28750000000000000000000000000 : ℕ) : ℤ) 0 0 0 0 (tabH (18665726781 / 143750000000) (-123 / 200)) qhTaP qhTaN = true := by decide +kernel

/-- `H x y / 2300 - 123 / 200` -/
def qhTa : Quot := ⟨.mono qhTaP qhTaN 11 26, [(28750000000000000000000000000, 0, 1)], 0, 1⟩

theorem qhTa_eval (hx : x ≠ 0) (hy : y ≠ 0) : qhTa.eval x y = H x y / 2300 - 123 / 200 := by
  rw [qhTa, quot_tab (by norm_num) qhTa_same _ _ hy, tabH_eq _ _ hx hy, H]
  push_cast
  field_simp
  ring

def qhbP : List Mono :=
  [(3978812463299770754133060000, 0, 0), (78188478303043507763153400000, 0, 1), (68429164567607296179450360000, 0,
    7), (53996377330937090237226480000, 0, 12), (52873907884165229971851456000, 1, 15),
    (2874033642798808575744204000, 2, 0), (146256516336461678705269920000, 2, 6), (3531902260543790296431715200, 2,
    22), (13127061945331143431582688000, 2, 26), (25944986107420179170826000000, 3, 2), (656795773470005939842800000,
    4, 0), (27049496416703139252311568000, 4, 4), (78981167116122086264653620000, 4, 26),
    (2412473351693086298367504000, 5, 1), (2815112698803676939566163200, 6, 2), (19634885299589040162786624000, 6,
    26), (23785828588947669915387288, 9, 2), (422148431454984697949003700, 9, 26), (3022533783209678734267830, 10,
    0)]

def qhbN : List Mono :=
  [(25200000000000000000000000000, 0, 1), (57391665341833357643727840000, 0, 2), (104829637743439255038444000000, 0,
    10), (726110470441140955987388520, 0, 23), (14172119718455341107518040000, 1, 2), (30115602640526341739340540000,
    1, 6), (43145445675545319906614412000, 1, 17), (12724755781080791642087088000, 2, 2),
    (102483633568306384670339700000, 2, 7), (3135767029243559448915060000, 3, 0), (52760321258619071331943800000, 3,
    4), (582671233453686683501179140, 3, 16), (51528046735433544968226054000, 3, 26), (9962219902867569232309908000,
    4, 2), (9829707185990434813553184000, 5, 3), (58871811397412435100848676000, 5, 26),
    (496703968747630547500771200, 6, 0), (453690462382454446453418400, 7, 2), (1882878093804828565677897600, 8, 26),
    (6799344797991783879289734, 10, 1), (6205175471105451547759611, 11, 26)]

theorem qhb_same : same ((35000000000000000000000000000 : ℕ) : ℤ) 0 0 0 0 (tabH (18665726781 / 175000000000) (-18 / 25)) qhbP qhbN = true := by decide +kernel

/-- `H x y / 2800 - 18 / 25` -/
def qhb : Quot := ⟨.mono qhbP qhbN 11 26, [(35000000000000000000000000000, 0, 1)], 0, 1⟩

theorem qhb_eval (hx : x ≠ 0) (hy : y ≠ 0) : qhb.eval x y = H x y / 2800 - 18 / 25 := by
  rw [qhb, quot_tab (by norm_num) qhb_same _ _ hy, tabH_eq _ _ hx hy, H]
  push_cast
  field_simp
  ring

def qhVaP : List Mono :=
  [(1326270821099923584711020000, 0, 0), (26062826101014502587717800000, 0, 1), (22809721522535765393150120000, 0,
    7), (17998792443645696745742160000, 0, 12), (17624635961388409990617152000, 1, 15), (958011214266269525248068000,
    2, 0), (48752172112153892901756640000, 2, 6), (1177300753514596765477238400, 2, 22),
    (4375687315110381143860896000, 2, 26), (8648328702473393056942000000, 3, 2), (218931924490001979947600000, 4, 0),
    (9016498805567713084103856000, 4, 4), (26327055705374028754884540000, 4, 26), (804157783897695432789168000, 5,
    1), (938370899601225646522054400, 6, 2), (6544961766529680054262208000, 6, 26), (7928609529649223305129096, 9,
    2), (140716143818328232649667900, 9, 26), (1007511261069892911422610, 10, 0)]

def qhVaN : List Mono :=
  [(6361250000000000000000000000, 0, 1), (19130555113944452547909280000, 0, 2), (34943212581146418346148000000, 0,
    10), (242036823480380318662462840, 0, 23), (4724039906151780369172680000, 1, 2), (10038534213508780579780180000,
    1, 6), (14381815225181773302204804000, 1, 17), (4241585260360263880695696000, 2, 2),
    (34161211189435461556779900000, 2, 7), (1045255676414519816305020000, 3, 0), (17586773752873023777314600000, 3,
    4), (194223744484562227833726380, 3, 16), (17176015578477848322742018000, 3, 26), (3320739967622523077436636000,
    4, 2), (3276569061996811604517728000, 5, 3), (19623937132470811700282892000, 5, 26),
    (165567989582543515833590400, 6, 0), (151230154127484815484472800, 7, 2), (627626031268276188559299200, 8, 26),
    (2266448265997261293096578, 10, 1), (2068391823701817182586537, 11, 26)]

theorem qhVa_same : same ((8750000000000000000000000000 : ℕ) : ℤ) 0 0 0 0 (tabH (6221908927 / 43750000000) (-727 / 1000)) qhVaP qhVaN = true := by decide +kernel

/-- `H x y / 2100 - 727 / 1000` -/
def qhVa : Quot := ⟨.mono qhVaP qhVaN 11 26, [(8750000000000000000000000000, 0, 1)], 0, 1⟩

theorem qhVa_eval (hx : x ≠ 0) (hy : y ≠ 0) : qhVa.eval x y = H x y / 2100 - 727 / 1000 := by
  rw [qhVa, quot_tab (by norm_num) qhVa_same _ _ hy, tabH_eq _ _ hx hy, H]
  push_cast
  field_simp
  ring

/-- `T/1000` -/
def qT : Quot := ⟨.mono [(80887, 0, 0)] [] 0 0, [(125000, 0, 1)], 0, 1⟩

theorem qT_eval (hy : y ≠ 0) : qT.eval x y = 647.096 / y / 1000 := by
  simp only [qT, Quot.eval, E.eval, evalN_cons', evalN_nil']
  push_cast
  field_simp
  ring

/-- the first coordinate -/
def qx : Quot := ⟨.mono [(1, 1, 0)] [] 1 0, [(1, 0, 0)], 0, 0⟩

theorem qx_eval : qx.eval x y = x := by
  simp only [qx, Quot.eval, E.eval, evalN_cons', evalN_nil']
  push_cast
  norm_num
  

/-- the second coordinate -/
def qy : Quot := ⟨.mono [(1, 0, 1)] [] 0 1, [(1, 0, 0)], 0, 0⟩

theorem qy_eval : qy.eval x y = y := by
  simp only [qy, Quot.eval, E.eval, evalN_cons', evalN_nil']
  push_cast
  norm_num
  

/-- what the equation of subregion 3a is about -/
def gTa : Quot := ⟨.mono [(80887, 0, 0)] [] 0 0, [(95000, 0, 1)], 0, 1⟩

theorem gTa_eval (hy : y ≠ 0) : gTa.eval x y = 647.096 / y / 760 := by
  simp only [gTa, Quot.eval, E.eval, evalN_cons', evalN_nil']
  push_cast
  field_simp
  ring

/-- the same for subregion 3b -/
def gTb : Quot := ⟨.mono [(80887, 0, 0)] [] 0 0, [(107500, 0, 1)], 0, 1⟩

theorem gTb_eval (hy : y ≠ 0) : gTb.eval x y = 647.096 / y / 860 := by
  simp only [gTb, Quot.eval, E.eval, evalN_cons', evalN_nil']
  push_cast
  field_simp
  ring

/-- the same for the volume -/
def gVa : Quot := ⟨.mono [(1250, 0, 0)] [] 0 0, [(1127, 1, 0)], 1, 0⟩

theorem gVa_eval (hx : x ≠ 0) : gVa.eval x y = 1 / (322 * x) / 0.0028 := by
  simp only [gVa, Quot.eval, E.eval, evalN_cons', evalN_nil']
  push_cast
  field_simp
  ring

/-- the same for the volume -/
def gVb : Quot := ⟨.mono [(625, 0, 0)] [] 0 0, [(1771, 1, 0)], 1, 0⟩

theorem gVb_eval (hx : x ≠ 0) : gVb.eval x y = 1 / (322 * x) / 0.0088 := by
  simp only [gVb, Quot.eval, E.eval, evalN_cons', evalN_nil']
  push_cast
  field_simp
  ring

/-- where subregions 3a and 3b meet -/
noncomputable def h3ab (p : ℝ) : ℝ := 2014.64004206875 + 3.74696550136983 * p - 2.19921901054187e-02 * p ^ 2 + 8.7513168600995e-05 * p ^ 3

/-- the border to region 2 -/
noncomputable def b23 (T : ℝ) : ℝ := 348.05185628969 - 1.1671859879975 * T + 0.0010192970039326 * T ^ 2

/-- a lower bound of the saturation pressure -/
noncomputable def low (T : ℝ) : ℝ := (-18917017 / 10000) * (T / 1000) ^ 0 + (749301 / 80) * (T / 1000) ^ 1 + (-7822609 / 500) * (T / 1000) ^ 2 + (11090403 / 1250) * (T / 1000) ^ 3

/-- an upper bound of the saturation pressure -/
noncomputable def high (T : ℝ) : ℝ := (-18916717 / 10000) * (T / 1000) ^ 0 + (749301 / 80) * (T / 1000) ^ 1 + (-7822609 / 500) * (T / 1000) ^ 2 + (11090403 / 1250) * (T / 1000) ^ 3

/-- at most 100 MPa -/
def kMax : Con := ⟨.mono [(1, 0, 0)] [(1, 1, 0)] 1 0, qp, qh, ⟨false, 0, 1⟩⟩

theorem kMax_holds (hx : x ≠ 0) (hy : y ≠ 0) (h : P x y ≤ 100) : kMax.Holds x y := by
  simp only [kMax, Con.Holds, Lg.coef, CharP.cast_eq_zero, zero_div, mul_zero, zero_mul, add_zero, E.eval, evalN_cons', evalN_nil']
  rw [qp_eval hx hy, qh_eval hx hy]
  push_cast
  norm_num at h ⊢
  linarith

/-- subregion 3a -/
def kA : Con := ⟨.mono [(2014640042068750, 0, 0), (374696550136983, 1, 0), (87513168600995, 3, 0)] [(219921901054187, 2, 0), (2000000000000000, 0, 1)] 3 1, qp, qh, ⟨false, 0, 1⟩⟩

theorem kA_holds (hx : x ≠ 0) (hy : y ≠ 0) (h : H x y ≤ h3ab (P x y)) : kA.Holds x y := by
  simp only [kA, Con.Holds, Lg.coef, CharP.cast_eq_zero, zero_div, mul_zero, zero_mul, add_zero, E.eval, evalN_cons', evalN_nil']
  rw [qp_eval hx hy, qh_eval hx hy]
  push_cast
  simp only [h3ab] at h
  norm_num at h ⊢
  linarith

/-- subregion 3b -/
def kB : Con := ⟨.mono [(219921901054187, 2, 0), (2000000000000000, 0, 1)] [(2014640042068750, 0, 0), (374696550136983, 1, 0), (87513168600995, 3, 0)] 3 1, qp, qh, ⟨false, 0, 1⟩⟩

theorem kB_holds (hx : x ≠ 0) (hy : y ≠ 0) (h : h3ab (P x y) ≤ H x y) : kB.Holds x y := by
  simp only [kB, Con.Holds, Lg.coef, CharP.cast_eq_zero, zero_div, mul_zero, zero_mul, add_zero, E.eval, evalN_cons', evalN_nil']
  rw [qp_eval hx hy, qh_eval hx hy]
  push_cast
  simp only [h3ab] at h
  norm_num at h ⊢
  linarith

/-- above the border to region 2 -/
def kB23 : Con := ⟨.mono [(10000000000000, 1, 0), (116718598799750, 0, 1)] [(34805185628969, 0, 0), (101929700393260, 0, 2)] 1 2, qp, qT, ⟨false, 0, 1⟩⟩

theorem kB23_holds (hx : x ≠ 0) (hy : y ≠ 0) (h : b23 (647.096 / y) ≤ P x y) : kB23.Holds x y := by
  simp only [kB23, Con.Holds, Lg.coef, CharP.cast_eq_zero, zero_div, mul_zero, zero_mul, add_zero, E.eval, evalN_cons', evalN_nil']
  rw [qp_eval hx hy, qT_eval hy]
  push_cast
  simp only [b23] at h
  norm_num at h ⊢
  linarith

/-- above saturation -/
def kLow : Con := ⟨.mono [(1000000, 1, 0), (18917017, 0, 0), (156452180, 0, 2)] [(93662625, 0, 1), (88723224, 0, 3)] 1 3, qp, qT, ⟨false, 0, 1⟩⟩

theorem kLow_holds (hx : x ≠ 0) (hy : y ≠ 0) (h : low (647.096 / y) ≤ P x y) : kLow.Holds x y := by
  simp only [kLow, Con.Holds, Lg.coef, CharP.cast_eq_zero, zero_div, mul_zero, zero_mul, add_zero, E.eval, evalN_cons', evalN_nil']
  rw [qp_eval hx hy, qT_eval hy]
  push_cast
  simp only [low] at h
  norm_num at h ⊢
  linarith

/-- below saturation -/
def kHigh : Con := ⟨.mono [(93662625, 0, 1), (88723224, 0, 3)] [(1000000, 1, 0), (18916717, 0, 0), (156452180, 0, 2)] 1 3, qp, qT, ⟨false, 0, 1⟩⟩

theorem kHigh_holds (hx : x ≠ 0) (hy : y ≠ 0) (h : P x y ≤ high (647.096 / y)) : kHigh.Holds x y := by
  simp only [kHigh, Con.Holds, Lg.coef, CharP.cast_eq_zero, zero_div, mul_zero, zero_mul, add_zero, E.eval, evalN_cons', evalN_nil']
  rw [qp_eval hx hy, qT_eval hy]
  push_cast
  simp only [high] at h
  norm_num at h ⊢
  linarith

/-- not in the middle of the dome -/
def kDome : Con := ⟨.mono [(3882576, 0, 0), (518420, 2, 1)] [(3364156, 0, 1), (1036840, 1, 1)] 2 1, qx, qy, ⟨false, 0, 1⟩⟩

theorem kDome_holds (hx : x ≠ 0) (hy : y ≠ 0) (h : 1200 * 647.096 * (y - 1) ≤ (322 - 322 * x) ^ 2 * y) : kDome.Holds x y := by
  simp only [kDome, Con.Holds, Lg.coef, CharP.cast_eq_zero, zero_div, mul_zero, zero_mul, add_zero, E.eval, evalN_cons', evalN_nil']
  rw [qx_eval, qy_eval]
  push_cast
  norm_num at h ⊢
  linarith

end PyX.Kron.B3
