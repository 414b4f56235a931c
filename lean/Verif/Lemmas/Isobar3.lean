import Verif.Lemmas.Density3

/-!
# Where the isobars of region 3 begin and end

At 623.4 K the enthalpy of the isobars from 22.1 MPa to 100 MPa is below 1700 kJ/kg, on the border to region 2 it is above
2500 kJ/kg.  Below the critical temperature the pressure inside the two-phase region stays below 22.1 MPa.
-/

namespace PyX.Kron.B3

open Spec Spec.IF97 Spec.Sat

/-- `s y² (P - b23) + c y²` -/
def tabQ (s c : ℚ) : List Term :=
  ⟨1, 1, s * (3005182011741 / 31250000000) * region3Log⟩ :: ⟨0, 2, c - s * 348.05185628969⟩ :: ⟨0, 1, s * 1.1671859879975 * 647.096⟩ ::
    ⟨0, 0, -(s * 0.0010192970039326 * 647.096 ^ 2)⟩ :: region3.map fun t => ⟨t.I + 1, t.J + 1, s * (3005182011741 / 31250000000) * t.I * t.n⟩

theorem dpoly_mapQ (ts : List Term) (K : ℚ) {x y : ℝ} (hx : x ≠ 0) (hy : y ≠ 0) :
    dpoly (ts.map fun t => ⟨t.I + 1, t.J + 1, K * t.I * t.n⟩) 0 0 x y = K * (x * (x * dpoly ts 1 0 x y)) * y := by
  induction ts with
  | nil => simp [dpoly]
  | cons t ts ih =>
    rw [List.map_cons, dpoly_cons, dpoly_cons, ih]
    simp only [Term.d, ff, Nat.cast_zero, sub_zero, Nat.cast_one, one_mul]
    rw [zpow_add_one₀ hx, zpow_add_one₀ hy, zpow_sub_one₀ hx]
    push_cast
    field_simp

theorem tabQ_eq (s c : ℚ) {x y : ℝ} (hx : x ≠ 0) (hy : y ≠ 0) :
    dpoly (tabQ s c) 0 0 x y = y ^ 2 * (s * (P x y - b23 (647.096 / y)) + c) := by
  rw [tabQ, dpoly_cons, dpoly_cons, dpoly_cons, dpoly_cons, dpoly_mapQ _ _ hx hy, P, b23]
  simp only [Term.d, ff, Nat.cast_zero, sub_zero, one_mul, zpow_zero, zpow_one, mul_one]
  push_cast
  rw [show y ^ (2 : ℤ) = y ^ 2 from zpow_ofNat y 2]
  field_simp
  ring

def pnP : List Mono :=
  [(138125000000000000000000000000, 0, 1), (760570424890436639436801480000, 2, 2), (692658860732105860004832420000, 2, 6),
   (385912041875710916942495574000, 2, 17), (1024342840377003727188010584000, 3, 2), (3666636667666072873761042600000,
   3, 7), (504858491708213071275324660000, 4, 0), (3640462166844715921904122200000, 4, 4),
   (14812116092533193059529974980, 4, 16), (858208502524634559298385658000, 4, 26), (1069278269574452430934596792000, 5,
   2), (989114285590287503113789140000, 6, 3), (1528768005642484201812360780000, 6, 26), (79969338968368518147624163200,
   7, 0), (56812127900558462350333615200, 8, 2), (71327852494724093899798003200, 9, 26), (995176829524252004150588340,
   11, 1), (297009885387236613272493813, 12, 26)]
def pnN : List Mono :=
  [(640588806591263091415422660000, 1, 0), (532043698084412626591755276000, 2, 15), (462719416490608180694816844000, 3,
   0), (5886824782542582567887114280000, 3, 6), (47386355328962519810458845600, 3, 22), (150961212371308149463200912000,
   3, 26), (2506285657976789307901791600000, 4, 2), (105744119528670956314690800000, 5, 0),
   (2177484461544602709811081224000, 5, 4), (1695462387426087451814564376000, 5, 26), (323673508018822411697640120000,
   6, 1), (339924858380543990452614206400, 7, 2), (592728099981344149914121212000, 7, 26),
   (3133242329580470337036016392, 10, 2), (17476945062236366495088753180, 10, 26), (486627939096758276217120630, 11, 0)]

theorem pn_same : same ((6250000000000000000000000000 : ℕ) : ℤ) 0 0 0 0 (tabP (-(3005182011741 / 31250000000)) (221 / 10)) pnP pnN = true := by decide +kernel

def pn : E := .mono pnP pnN 12 26
theorem pn_ok : pn.ok = true := by decide +kernel

def pnA_tree : Tree := .sx (.sx (.sx .leaf .leaf) (.sx (.sx .leaf .leaf) (.sx .leaf .leaf))) (.sx (.sx (.sx .leaf .leaf) .leaf) (.sx .leaf .leaf))
theorem pnA_check : check 13 27 pn [] pnA_tree 3000 8957 10000 10000 1 10000 = true := by decide +kernel

def pnB_tree : Tree := .leaf
theorem pnB_check : check 13 27 pn [] pnB_tree 11956 1709 10000 10051 1 10000 = true := by decide +kernel

def pnC_tree : Tree := .leaf
theorem pnC_check : check 13 27 pn [] pnC_tree 13664 1616 10000 10182 1 10000 = true := by decide +kernel

def pnD_tree : Tree := .sx .leaf .leaf
theorem pnD_check : check 13 27 pn [] pnD_tree 11956 6367 10000 10380 1 10000 = true := by decide +kernel

def hnP : List Mono :=
  [(21250000000000000000000000000, 0, 1), (57391665341833357643727840000, 0, 2), (104829637743439255038444000000, 0, 10),
   (726110470441140955987388520, 0, 23), (14172119718455341107518040000, 1, 2), (30115602640526341739340540000, 1, 6),
   (43145445675545319906614412000, 1, 17), (12724755781080791642087088000, 2, 2), (102483633568306384670339700000, 2,
   7), (3135767029243559448915060000, 3, 0), (52760321258619071331943800000, 3, 4), (582671233453686683501179140, 3,
   16), (51528046735433544968226054000, 3, 26), (9962219902867569232309908000, 4, 2), (9829707185990434813553184000, 5,
   3), (58871811397412435100848676000, 5, 26), (496703968747630547500771200, 6, 0), (453690462382454446453418400, 7, 2),
   (1882878093804828565677897600, 8, 26), (6799344797991783879289734, 10, 1), (6205175471105451547759611, 11, 26)]
def hnN : List Mono :=
  [(3978812463299770754133060000, 0, 0), (78188478303043507763153400000, 0, 1), (68429164567607296179450360000, 0, 7),
   (53996377330937090237226480000, 0, 12), (52873907884165229971851456000, 1, 15), (2874033642798808575744204000, 2, 0),
   (146256516336461678705269920000, 2, 6), (3531902260543790296431715200, 2, 22), (13127061945331143431582688000, 2,
   26), (25944986107420179170826000000, 3, 2), (656795773470005939842800000, 4, 0), (27049496416703139252311568000, 4,
   4), (78981167116122086264653620000, 4, 26), (2412473351693086298367504000, 5, 1), (2815112698803676939566163200, 6,
   2), (19634885299589040162786624000, 6, 26), (23785828588947669915387288, 9, 2), (422148431454984697949003700, 9, 26),
   (3022533783209678734267830, 10, 0)]

theorem hn_same : same ((12500000000000000000000000 : ℕ) : ℤ) 0 0 0 0 (tabH (-(18665726781 / 62500000)) 1700) hnP hnN = true := by decide +kernel

def hn : E := .mono hnP hnN 11 26
theorem hn_ok : hn.ok = true := by decide +kernel

def hnA_tree : Tree := .sx (.sx .leaf .leaf) .leaf
theorem hnA_check : check 12 27 hn [] hnA_tree 17391 6336 10000 10380 5 10000 = true := by decide +kernel

def hpP : List Mono :=
  [(3978812463299770754133060000, 0, 0), (78188478303043507763153400000, 0, 1), (68429164567607296179450360000, 0, 7),
   (53996377330937090237226480000, 0, 12), (52873907884165229971851456000, 1, 15), (2874033642798808575744204000, 2, 0),
   (146256516336461678705269920000, 2, 6), (3531902260543790296431715200, 2, 22), (13127061945331143431582688000, 2,
   26), (25944986107420179170826000000, 3, 2), (656795773470005939842800000, 4, 0), (27049496416703139252311568000, 4,
   4), (78981167116122086264653620000, 4, 26), (2412473351693086298367504000, 5, 1), (2815112698803676939566163200, 6,
   2), (19634885299589040162786624000, 6, 26), (23785828588947669915387288, 9, 2), (422148431454984697949003700, 9, 26),
   (3022533783209678734267830, 10, 0)]
def hpN : List Mono :=
  [(31250000000000000000000000000, 0, 1), (57391665341833357643727840000, 0, 2), (104829637743439255038444000000, 0, 10),
   (726110470441140955987388520, 0, 23), (14172119718455341107518040000, 1, 2), (30115602640526341739340540000, 1, 6),
   (43145445675545319906614412000, 1, 17), (12724755781080791642087088000, 2, 2), (102483633568306384670339700000, 2,
   7), (3135767029243559448915060000, 3, 0), (52760321258619071331943800000, 3, 4), (582671233453686683501179140, 3,
   16), (51528046735433544968226054000, 3, 26), (9962219902867569232309908000, 4, 2), (9829707185990434813553184000, 5,
   3), (58871811397412435100848676000, 5, 26), (496703968747630547500771200, 6, 0), (453690462382454446453418400, 7, 2),
   (1882878093804828565677897600, 8, 26), (6799344797991783879289734, 10, 1), (6205175471105451547759611, 11, 26)]

theorem hp_same : same ((12500000000000000000000000 : ℕ) : ℤ) 0 0 0 0 (tabH (18665726781 / 62500000) (-2500)) hpP hpN = true := by decide +kernel

def hp : E := .mono hpP hpN 11 26
theorem hp_ok : hp.ok = true := by decide +kernel

def hp0_tree : Tree := .sx .leaf .leaf
theorem hp0_check : check 12 27 hp [] hp0_tree 3000 2280 10000 9516 259 10000 = true := by decide +kernel

def hp1_tree : Tree := .sx .leaf (.sx .leaf .leaf)
theorem hp1_check : check 12 27 hp [] hp1_tree 3000 3119 10000 9244 273 10000 = true := by decide +kernel

def hp2_tree : Tree := .sx .leaf (.sx .leaf .leaf)
theorem hp2_check : check 12 27 hp [] hp2_tree 3000 4112 10000 8987 258 10000 = true := by decide +kernel

def hp3_tree : Tree := .sx .leaf (.sx .leaf .leaf)
theorem hp3_check : check 12 27 hp [] hp3_tree 3000 5230 10000 8685 303 10000 = true := by decide +kernel

def hp4_tree : Tree := .sx .leaf (.sx .leaf (.sx .leaf .leaf))
theorem hp4_check : check 12 27 hp [] hp4_tree 3000 6814 10000 8243 443 10000 = true := by decide +kernel

def hp5_tree : Tree := .sx .leaf (.sx .leaf .leaf)
theorem hp5_check : check 12 27 hp [] hp5_tree 3000 9361 10000 7496 748 10000 = true := by decide +kernel

def qbP : List Mono :=
  [(640588806591263091415422660000, 1, 1), (4720508650557689125000000000000, 0, 1), (532043698084412626591755276000, 2,
   16), (462719416490608180694816844000, 3, 1), (5886824782542582567887114280000, 3, 7), (47386355328962519810458845600,
   3, 23), (150961212371308149463200912000, 3, 27), (2506285657976789307901791600000, 4, 3),
   (105744119528670956314690800000, 5, 1), (2177484461544602709811081224000, 5, 5), (1695462387426087451814564376000, 5,
   27), (323673508018822411697640120000, 6, 2), (339924858380543990452614206400, 7, 3), (592728099981344149914121212000,
   7, 27), (3133242329580470337036016392, 10, 3), (17476945062236366495088753180, 10, 27), (486627939096758276217120630,
   11, 1)]
def qbN : List Mono :=
  [(2175949101810562500000000000000, 0, 2), (2667584562900496655907760000000, 0, 0), (760570424890436639436801480000, 2,
   3), (692658860732105860004832420000, 2, 7), (385912041875710916942495574000, 2, 18),
   (1024342840377003727188010584000, 3, 3), (3666636667666072873761042600000, 3, 8), (504858491708213071275324660000, 4,
   1), (3640462166844715921904122200000, 4, 5), (14812116092533193059529974980, 4, 17), (858208502524634559298385658000,
   4, 27), (1069278269574452430934596792000, 5, 3), (989114285590287503113789140000, 6, 4),
   (1528768005642484201812360780000, 6, 27), (79969338968368518147624163200, 7, 1), (56812127900558462350333615200, 8,
   3), (71327852494724093899798003200, 9, 27), (995176829524252004150588340, 11, 2), (297009885387236613272493813, 12,
   27)]

theorem qb_same : same ((6250000000000000000000000000 : ℕ) : ℤ) 0 0 0 0 (tabQ 1 (-(1 / 10))) qbP qbN = true := by decide +kernel

def qb : E := .mono qbP qbN 12 27
theorem qb_ok : qb.ok = true := by decide +kernel

def qb0_tree : Tree := .sx (.sx (.sx (.sx (.sx (.sx (.sx (.sy .leaf .leaf) .leaf) .leaf) .leaf) .leaf) .leaf) .leaf) (.sx .leaf .leaf)
theorem qb0_check : check 13 28 qb [] qb0_tree 5279 18448 10000 9516 259 10000 = true := by decide +kernel

def qb1_tree : Tree := .sx (.sx (.sx (.sx (.sx (.sx (.sx (.sy .leaf .leaf) .leaf) .leaf) .leaf) .leaf) .leaf) .leaf) (.sx .leaf .leaf)
theorem qb1_check : check 13 28 qb [] qb1_tree 6118 17609 10000 9244 273 10000 = true := by decide +kernel

def qb2_tree : Tree := .sx (.sx (.sx (.sx (.sx (.sx (.sx (.sy .leaf .leaf) .leaf) .leaf) .leaf) .leaf) .leaf) .leaf) .leaf
theorem qb2_check : check 13 28 qb [] qb2_tree 7111 16616 10000 8987 258 10000 = true := by decide +kernel

def qb3_tree : Tree := .sx (.sx (.sx (.sx (.sx (.sx (.sy .leaf .leaf) .leaf) .leaf) .leaf) .leaf) .leaf) .leaf
theorem qb3_check : check 13 28 qb [] qb3_tree 8229 15498 10000 8685 303 10000 = true := by decide +kernel

def qb4_tree : Tree := .sx (.sx (.sx (.sx (.sx (.sy (.sx (.sy .leaf .leaf) .leaf) .leaf) .leaf) .leaf) .leaf) .leaf) .leaf
theorem qb4_check : check 13 28 qb [] qb4_tree 9813 13914 10000 8243 443 10000 = true := by decide +kernel

def qb5_tree : Tree := .sx (.sx (.sx (.sx (.sy .leaf .leaf) .leaf) .leaf) .leaf) .leaf
theorem qb5_check : check 13 28 qb [] qb5_tree 12360 11367 10000 7496 748 10000 = true := by decide +kernel

def qnP : List Mono :=
  [(2175261601810562500000000000000, 0, 2), (2667584562900496655907760000000, 0, 0), (760570424890436639436801480000, 2,
   3), (692658860732105860004832420000, 2, 7), (385912041875710916942495574000, 2, 18),
   (1024342840377003727188010584000, 3, 3), (3666636667666072873761042600000, 3, 8), (504858491708213071275324660000, 4,
   1), (3640462166844715921904122200000, 4, 5), (14812116092533193059529974980, 4, 17), (858208502524634559298385658000,
   4, 27), (1069278269574452430934596792000, 5, 3), (989114285590287503113789140000, 6, 4),
   (1528768005642484201812360780000, 6, 27), (79969338968368518147624163200, 7, 1), (56812127900558462350333615200, 8,
   3), (71327852494724093899798003200, 9, 27), (995176829524252004150588340, 11, 2), (297009885387236613272493813, 12,
   27)]
def qnN : List Mono :=
  [(640588806591263091415422660000, 1, 1), (4720508650557689125000000000000, 0, 1), (532043698084412626591755276000, 2,
   16), (462719416490608180694816844000, 3, 1), (5886824782542582567887114280000, 3, 7), (47386355328962519810458845600,
   3, 23), (150961212371308149463200912000, 3, 27), (2506285657976789307901791600000, 4, 3),
   (105744119528670956314690800000, 5, 1), (2177484461544602709811081224000, 5, 5), (1695462387426087451814564376000, 5,
   27), (323673508018822411697640120000, 6, 2), (339924858380543990452614206400, 7, 3), (592728099981344149914121212000,
   7, 27), (3133242329580470337036016392, 10, 3), (17476945062236366495088753180, 10, 27), (486627939096758276217120630,
   11, 1)]

theorem qn_same : same ((6250000000000000000000000000 : ℕ) : ℤ) 0 0 0 0 (tabQ (-1) (-(1 / 100))) qnP qnN = true := by decide +kernel

def qn : E := .mono qnP qnN 12 27
theorem qn_ok : qn.ok = true := by decide +kernel

def qn_tree : Tree := .sy .leaf (.sy .leaf .leaf)
theorem qn_check : check 13 28 qn [] qn_tree 3000 1 10000 7496 2279 10000 = true := by decide +kernel

variable {x y : ℝ}

private theorem pn_pos (hx : 0 < x) (hy : 0 < y) (h : 0 < pn.eval x y) : P x y < 22.1 := by
  rw [pn, E.eval, same_eq0 pn_same, tabP_eq _ _ hx.ne'] at h
  have := pos_of_mul_pos_right h (by norm_num)
  push_cast at this
  rw [P, div_lt_iff₀ hy]
  linarith

private theorem hp_pos (hx : 0 < x) (hy : 0 < y) (h : 0 < hp.eval x y) : 2500 < H x y := by
  rw [hp, E.eval, same_eq0 hp_same, tabH_eq _ _ hx.ne' hy.ne'] at h
  have := pos_of_mul_pos_right h (by norm_num)
  push_cast at this
  rw [H, lt_div_iff₀ hy]
  linarith

private theorem qb_pos (hx : 0 < x) (hy : 0 < y) (h : 0 < qb.eval x y) : b23 (647.096 / y) + 0.1 < P x y := by
  rw [qb, E.eval, same_eq0 qb_same, tabQ_eq _ _ hx.ne' hy.ne'] at h
  have := pos_of_mul_pos_right (pos_of_mul_pos_right h (by norm_num)) (by positivity)
  push_cast at this
  linarith

theorem p_critical (h0 : 0.3 ≤ x) (h1 : x ≤ 385 / 322) : P x 1 < 22.1 := by
  refine pn_pos (by linarith) (by norm_num) ?_
  refine check_sound (by norm_num) (by norm_num) pn_ok pnA_tree (by norm_num) (by norm_num) pnA_check (fun l hl => by cases hl) ?_ ?_ ?_ ?_
  all_goals norm_num at h0 h1 ⊢
  all_goals linarith

theorem p_643 (h0 : 385 / 322 ≤ x) (h1 : x ≤ 440 / 322) : P x (647.096 / 643.79) < 22.1 := by
  refine pn_pos (lt_of_lt_of_le (by norm_num) h0) (by norm_num) ?_
  refine check_sound (by norm_num) (by norm_num) pn_ok pnB_tree (by norm_num) (by norm_num) pnB_check (fun l hl => by cases hl) ?_ ?_ ?_ ?_
  all_goals norm_num at h0 h1 ⊢
  all_goals linarith

theorem p_635 (h0 : 440 / 322 ≤ x) (h1 : x ≤ 492 / 322) : P x (647.096 / 635.5) < 22.1 := by
  refine pn_pos (lt_of_lt_of_le (by norm_num) h0) (by norm_num) ?_
  refine check_sound (by norm_num) (by norm_num) pn_ok pnC_tree (by norm_num) (by norm_num) pnC_check (fun l hl => by cases hl) ?_ ?_ ?_ ?_
  all_goals norm_num at h0 h1 ⊢
  all_goals linarith

theorem p_623 (h0 : 385 / 322 ≤ x) (h1 : x ≤ 590 / 322) : P x (647.096 / 623.4) < 22.1 := by
  refine pn_pos (lt_of_lt_of_le (by norm_num) h0) (by norm_num) ?_
  refine check_sound (by norm_num) (by norm_num) pn_ok pnD_tree (by norm_num) (by norm_num) pnD_check (fun l hl => by cases hl) ?_ ?_ ?_ ?_
  all_goals norm_num at h0 h1 ⊢
  all_goals linarith

theorem h_623 (h0 : 560 / 322 ≤ x) (h1 : x ≤ 764 / 322) (h2 : 647.096 / 623.4 ≤ y) (h3 : y ≤ 647.096 / 623.15) : H x y < 1700 := by
  have hx : 0 < x := lt_of_lt_of_le (by norm_num) h0
  have hy : 0 < y := lt_of_lt_of_le (by norm_num) h2
  have h : 0 < hn.eval x y := by
    refine check_sound (by norm_num) (by norm_num) hn_ok hnA_tree (by norm_num) (by norm_num) hnA_check (fun l hl => by cases hl) ?_ ?_ ?_ ?_
    all_goals norm_num at h0 h1 h2 h3 ⊢
    all_goals linarith
  rw [hn, E.eval, same_eq0 hn_same, tabH_eq _ _ hx.ne' hy.ne'] at h
  have := pos_of_mul_pos_right h (by norm_num)
  push_cast at this
  rw [H, div_lt_iff₀ hy]
  linarith

theorem p_light_border (h2 : 647.096 / 863.2 ≤ y) (h3 : y ≤ 647.096 / 662) : P 0.3 y < b23 (647.096 / y) - 0.01 := by
  have hy : 0 < y := lt_of_lt_of_le (by norm_num) h2
  have h : 0 < qn.eval 0.3 y := by
    refine check_sound (by norm_num) (by norm_num) qn_ok qn_tree (by norm_num) (by norm_num) qn_check (fun l hl => by cases hl) ?_ ?_ ?_ ?_
    all_goals norm_num at h2 h3 ⊢
    all_goals linarith
  rw [qn, E.eval, same_eq0 qn_same, tabQ_eq _ _ (by norm_num) hy.ne'] at h
  have := pos_of_mul_pos_right (pos_of_mul_pos_right h (by norm_num)) (by positivity)
  push_cast at this
  linarith

private theorem border0 (h0 : 0.3 ≤ x) (h1 : x ≤ 764 / 322) (h2 : 647.096 / 680 ≤ y) (h3 : y ≤ 647.096 / 662) :
    2500 < H x y ∨ b23 (647.096 / y) + 0.1 < P x y := by
  have hx : 0 < x := by linarith
  have hy : 0 < y := lt_of_lt_of_le (by norm_num) h2
  rcases le_total x (170 / 322) with h | h
  · refine .inl (hp_pos hx hy ?_)
    refine check_sound (by norm_num) (by norm_num) hp_ok hp0_tree (by norm_num) (by norm_num) hp0_check (fun l hl => by cases hl) ?_ ?_ ?_ ?_
    all_goals norm_num at h0 h h2 h3 ⊢
    all_goals linarith
  · refine .inr (qb_pos hx hy ?_)
    refine check_sound (by norm_num) (by norm_num) qb_ok qb0_tree (by norm_num) (by norm_num) qb0_check (fun l hl => by cases hl) ?_ ?_ ?_ ?_
    all_goals norm_num at h h1 h2 h3 ⊢
    all_goals linarith

private theorem border1 (h0 : 0.3 ≤ x) (h1 : x ≤ 764 / 322) (h2 : 647.096 / 700 ≤ y) (h3 : y ≤ 647.096 / 680) :
    2500 < H x y ∨ b23 (647.096 / y) + 0.1 < P x y := by
  have hx : 0 < x := by linarith
  have hy : 0 < y := lt_of_lt_of_le (by norm_num) h2
  rcases le_total x (197 / 322) with h | h
  · refine .inl (hp_pos hx hy ?_)
    refine check_sound (by norm_num) (by norm_num) hp_ok hp1_tree (by norm_num) (by norm_num) hp1_check (fun l hl => by cases hl) ?_ ?_ ?_ ?_
    all_goals norm_num at h0 h h2 h3 ⊢
    all_goals linarith
  · refine .inr (qb_pos hx hy ?_)
    refine check_sound (by norm_num) (by norm_num) qb_ok qb1_tree (by norm_num) (by norm_num) qb1_check (fun l hl => by cases hl) ?_ ?_ ?_ ?_
    all_goals norm_num at h h1 h2 h3 ⊢
    all_goals linarith

private theorem border2 (h0 : 0.3 ≤ x) (h1 : x ≤ 764 / 322) (h2 : 647.096 / 720 ≤ y) (h3 : y ≤ 647.096 / 700) :
    2500 < H x y ∨ b23 (647.096 / y) + 0.1 < P x y := by
  have hx : 0 < x := by linarith
  have hy : 0 < y := lt_of_lt_of_le (by norm_num) h2
  rcases le_total x (229 / 322) with h | h
  · refine .inl (hp_pos hx hy ?_)
    refine check_sound (by norm_num) (by norm_num) hp_ok hp2_tree (by norm_num) (by norm_num) hp2_check (fun l hl => by cases hl) ?_ ?_ ?_ ?_
    all_goals norm_num at h0 h h2 h3 ⊢
    all_goals linarith
  · refine .inr (qb_pos hx hy ?_)
    refine check_sound (by norm_num) (by norm_num) qb_ok qb2_tree (by norm_num) (by norm_num) qb2_check (fun l hl => by cases hl) ?_ ?_ ?_ ?_
    all_goals norm_num at h h1 h2 h3 ⊢
    all_goals linarith

private theorem border3 (h0 : 0.3 ≤ x) (h1 : x ≤ 764 / 322) (h2 : 647.096 / 745 ≤ y) (h3 : y ≤ 647.096 / 720) :
    2500 < H x y ∨ b23 (647.096 / y) + 0.1 < P x y := by
  have hx : 0 < x := by linarith
  have hy : 0 < y := lt_of_lt_of_le (by norm_num) h2
  rcases le_total x (265 / 322) with h | h
  · refine .inl (hp_pos hx hy ?_)
    refine check_sound (by norm_num) (by norm_num) hp_ok hp3_tree (by norm_num) (by norm_num) hp3_check (fun l hl => by cases hl) ?_ ?_ ?_ ?_
    all_goals norm_num at h0 h h2 h3 ⊢
    all_goals linarith
  · refine .inr (qb_pos hx hy ?_)
    refine check_sound (by norm_num) (by norm_num) qb_ok qb3_tree (by norm_num) (by norm_num) qb3_check (fun l hl => by cases hl) ?_ ?_ ?_ ?_
    all_goals norm_num at h h1 h2 h3 ⊢
    all_goals linarith

private theorem border4 (h0 : 0.3 ≤ x) (h1 : x ≤ 764 / 322) (h2 : 647.096 / 785 ≤ y) (h3 : y ≤ 647.096 / 745) :
    2500 < H x y ∨ b23 (647.096 / y) + 0.1 < P x y := by
  have hx : 0 < x := by linarith
  have hy : 0 < y := lt_of_lt_of_le (by norm_num) h2
  rcases le_total x (316 / 322) with h | h
  · refine .inl (hp_pos hx hy ?_)
    refine check_sound (by norm_num) (by norm_num) hp_ok hp4_tree (by norm_num) (by norm_num) hp4_check (fun l hl => by cases hl) ?_ ?_ ?_ ?_
    all_goals norm_num at h0 h h2 h3 ⊢
    all_goals linarith
  · refine .inr (qb_pos hx hy ?_)
    refine check_sound (by norm_num) (by norm_num) qb_ok qb4_tree (by norm_num) (by norm_num) qb4_check (fun l hl => by cases hl) ?_ ?_ ?_ ?_
    all_goals norm_num at h h1 h2 h3 ⊢
    all_goals linarith

private theorem border5 (h0 : 0.3 ≤ x) (h1 : x ≤ 764 / 322) (h2 : 647.096 / 863.2 ≤ y) (h3 : y ≤ 647.096 / 785) :
    2500 < H x y ∨ b23 (647.096 / y) + 0.1 < P x y := by
  have hx : 0 < x := by linarith
  have hy : 0 < y := lt_of_lt_of_le (by norm_num) h2
  rcases le_total x (398 / 322) with h | h
  · refine .inl (hp_pos hx hy ?_)
    refine check_sound (by norm_num) (by norm_num) hp_ok hp5_tree (by norm_num) (by norm_num) hp5_check (fun l hl => by cases hl) ?_ ?_ ?_ ?_
    all_goals norm_num at h0 h h2 h3 ⊢
    all_goals linarith
  · refine .inr (qb_pos hx hy ?_)
    refine check_sound (by norm_num) (by norm_num) qb_ok qb5_tree (by norm_num) (by norm_num) qb5_check (fun l hl => by cases hl) ?_ ?_ ?_ ?_
    all_goals norm_num at h h1 h2 h3 ⊢
    all_goals linarith

/-- a state at most at 2500 kJ/kg is well inside the border to region 2 -/
theorem border (h0 : 0.3 ≤ x) (h1 : x ≤ 764 / 322) (h2 : 647.096 / 863.2 ≤ y) (h3 : y ≤ 647.096 / 662) :
    2500 < H x y ∨ b23 (647.096 / y) + 0.1 < P x y := by
  rcases le_total y (647.096 / 680) with h | h
  swap
  · exact border0 h0 h1 h h3
  clear h3; rename' h => h3
  rcases le_total y (647.096 / 700) with h | h
  swap
  · exact border1 h0 h1 h h3
  clear h3; rename' h => h3
  rcases le_total y (647.096 / 720) with h | h
  swap
  · exact border2 h0 h1 h h3
  clear h3; rename' h => h3
  rcases le_total y (647.096 / 745) with h | h
  swap
  · exact border3 h0 h1 h h3
  clear h3; rename' h => h3
  rcases le_total y (647.096 / 785) with h | h
  swap
  · exact border4 h0 h1 h h3
  clear h3; rename' h => h3
  exact border5 h0 h1 h2 h3

end PyX.Kron.B3
