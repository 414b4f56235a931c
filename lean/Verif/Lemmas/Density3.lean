import Verif.Lemmas.Back3
import Verif.Lemmas.Volumes

/-!
# The pressure of region 3 increases with temperature at constant density

Up to 550 kg/m³ on the whole interval that `T3_prho` searches.  Above that density the equation of region 3, far outside its range,
makes the pressure decrease towards 1073.15 K; there it increases up to 848.15 K, the middle of the interval, where it is above 100 MPa.
-/

namespace PyX.Kron.B3

open Spec Spec.IF97 Spec.Sat

/-- `x (φ_x - y φ_xy) - c`, which is `1000 ∂p/∂T / (ρ R) - c` -/
def tabZ (c : ℚ) : List Term := ⟨0, 0, region3Log - c⟩ :: region3.map fun t => ⟨t.I, t.J, t.I * (1 - t.J) * t.n⟩

theorem dpoly_mapZ (ts : List Term) {x y : ℝ} (hx : x ≠ 0) (hy : y ≠ 0) :
    dpoly (ts.map fun t => ⟨t.I, t.J, t.I * (1 - t.J) * t.n⟩) 0 0 x y = x * dpoly ts 1 0 x y - x * y * dpoly ts 1 1 x y := by
  induction ts with
  | nil => simp [dpoly]
  | cons t ts ih =>
    rw [List.map_cons, dpoly_cons, dpoly_cons, dpoly_cons, ih]
    simp only [Term.d, ff, Nat.cast_zero, sub_zero, Nat.cast_one, one_mul]
    rw [zpow_sub_one₀ hx, zpow_sub_one₀ hy]
    push_cast
    field_simp
    ring

theorem tabZ_eq (c : ℚ) {x y : ℝ} (hx : x ≠ 0) (hy : y ≠ 0) :
    dpoly (tabZ c) 0 0 x y = region3Log + x * dpoly region3 1 0 x y - x * y * dpoly region3 1 1 x y - c := by
  rw [tabZ, dpoly_cons, dpoly_mapZ _ hx hy]
  simp only [Term.d, ff, Nat.cast_zero, sub_zero, zpow_zero, mul_one]
  push_cast
  ring

def z1P : List Mono :=
  [(13161400570260000, 0, 0), (253086309554280000, 1, 2), (1152440780668100000, 1, 6), (2054648485811424000, 1, 17),
   (153973840746684000, 2, 0), (340858835296824000, 2, 2), (7320628141671600000, 2, 7), (3634184704242600000, 3, 4),
   (73932873456566700, 3, 16), (7139405360238450000, 3, 26), (35187259578800000, 4, 0), (355811483429912000, 4, 2),
   (658272465179080000, 5, 3), (12717765510289500000, 5, 26), (18904721137887200, 7, 2), (593373814098880000, 8, 26),
   (161929605992430, 10, 0), (2470814448399825, 11, 26)]
def z1N : List Mono :=
  [(2478589231560904000, 1, 15), (9794456308375400000, 2, 6), (331132509784893600, 2, 22), (1255840842430800000, 2, 26),
   (167995978192260000, 3, 0), (833987974167600000, 3, 2), (2173729697273592000, 4, 4), (14104490017593400000, 4, 26),
   (26610481047715200, 6, 0), (113112901998110400, 6, 2), (4930883534388300000, 6, 26), (1042613165305512, 9, 2),
   (145390071166699500, 9, 26)]

theorem z1_same : same ((200000000000000000 : ℕ) : ℤ) 0 0 0 0 (tabZ 1) z1P z1N = true := by decide +kernel

def z1 : E := .mono z1P z1N 11 26
theorem z1_ok : z1.ok = true := by decide +kernel

def z1_tree : Tree := .sx (.sx (.sy .leaf (.sx .leaf .leaf)) (.sy .leaf (.sx .leaf .leaf))) (.sx (.sy (.sx .leaf .leaf) (.sx (.sy .leaf .leaf) (.sy .leaf .leaf))) (.sy (.sx (.sy .leaf .leaf) (.sy (.sx .leaf (.sy .leaf .leaf)) .leaf)) (.sx (.sy .leaf .leaf) (.sy .leaf .leaf))))
theorem z1_check : check 12 27 z1 [] z1_tree 3000 14081 10000 6029 4356 10000 = true := by decide +kernel

def z2P : List Mono :=
  [(193161400570260000, 0, 0), (253086309554280000, 1, 2), (1152440780668100000, 1, 6), (2054648485811424000, 1, 17),
   (153973840746684000, 2, 0), (340858835296824000, 2, 2), (7320628141671600000, 2, 7), (3634184704242600000, 3, 4),
   (73932873456566700, 3, 16), (7139405360238450000, 3, 26), (35187259578800000, 4, 0), (355811483429912000, 4, 2),
   (658272465179080000, 5, 3), (12717765510289500000, 5, 26), (18904721137887200, 7, 2), (593373814098880000, 8, 26),
   (161929605992430, 10, 0), (2470814448399825, 11, 26)]
def z2N : List Mono :=
  [(2478589231560904000, 1, 15), (9794456308375400000, 2, 6), (331132509784893600, 2, 22), (1255840842430800000, 2, 26),
   (167995978192260000, 3, 0), (833987974167600000, 3, 2), (2173729697273592000, 4, 4), (14104490017593400000, 4, 26),
   (26610481047715200, 6, 0), (113112901998110400, 6, 2), (4930883534388300000, 6, 26), (1042613165305512, 9, 2),
   (145390071166699500, 9, 26)]

theorem z2_same : same ((200000000000000000 : ℕ) : ℤ) 0 0 0 0 (tabZ (1 / 10)) z2P z2N = true := by decide +kernel

def z2 : E := .mono z2P z2N 11 26
theorem z2_ok : z2.ok = true := by decide +kernel

def z2_tree : Tree := .sx (.sx (.sy .leaf .leaf) (.sy .leaf .leaf)) (.sx (.sy (.sx .leaf (.sy .leaf .leaf)) .leaf) (.sy (.sx (.sy .leaf .leaf) (.sy (.sx .leaf (.sy (.sx .leaf (.sy .leaf .leaf)) .leaf)) .leaf)) .leaf))
theorem z2_check : check 12 27 z2 [] z2_tree 17080 6647 10000 7629 2756 10000 = true := by decide +kernel

def p1P : List Mono :=
  [(640588806591263091415422660000, 1, 0), (532043698084412626591755276000, 2, 15), (462719416490608180694816844000, 3,
   0), (5886824782542582567887114280000, 3, 6), (47386355328962519810458845600, 3, 22), (150961212371308149463200912000,
   3, 26), (2506285657976789307901791600000, 4, 2), (105744119528670956314690800000, 5, 0),
   (2177484461544602709811081224000, 5, 4), (1695462387426087451814564376000, 5, 26), (323673508018822411697640120000,
   6, 1), (339924858380543990452614206400, 7, 2), (592728099981344149914121212000, 7, 26),
   (3133242329580470337036016392, 10, 2), (17476945062236366495088753180, 10, 26), (486627939096758276217120630, 11, 0)]
def p1N : List Mono :=
  [(625000000000000000000000000000, 0, 1), (760570424890436639436801480000, 2, 2), (692658860732105860004832420000, 2, 6),
   (385912041875710916942495574000, 2, 17), (1024342840377003727188010584000, 3, 2), (3666636667666072873761042600000,
   3, 7), (504858491708213071275324660000, 4, 0), (3640462166844715921904122200000, 4, 4),
   (14812116092533193059529974980, 4, 16), (858208502524634559298385658000, 4, 26), (1069278269574452430934596792000, 5,
   2), (989114285590287503113789140000, 6, 3), (1528768005642484201812360780000, 6, 26), (79969338968368518147624163200,
   7, 0), (56812127900558462350333615200, 8, 2), (71327852494724093899798003200, 9, 26), (995176829524252004150588340,
   11, 1), (297009885387236613272493813, 12, 26)]

theorem p1_same : same ((6250000000000000000000000000 : ℕ) : ℤ) 0 0 0 0 (tabP (3005182011741 / 31250000000) (-100)) p1P p1N = true := by decide +kernel

def p1 : E := .mono p1P p1N 12 26
theorem p1_ok : p1.ok = true := by decide +kernel

def p1_tree : Tree := .leaf
theorem p1_check : check 13 27 p1 [] p1_tree 17080 6647 10000 7496 134 10000 = true := by decide +kernel

def p0P : List Mono :=
  [(640588806591263091415422660000, 1, 0), (532043698084412626591755276000, 2, 15), (462719416490608180694816844000, 3,
   0), (5886824782542582567887114280000, 3, 6), (47386355328962519810458845600, 3, 22), (150961212371308149463200912000,
   3, 26), (2506285657976789307901791600000, 4, 2), (105744119528670956314690800000, 5, 0),
   (2177484461544602709811081224000, 5, 4), (1695462387426087451814564376000, 5, 26), (323673508018822411697640120000,
   6, 1), (339924858380543990452614206400, 7, 2), (592728099981344149914121212000, 7, 26),
   (3133242329580470337036016392, 10, 2), (17476945062236366495088753180, 10, 26), (486627939096758276217120630, 11, 0)]
def p0N : List Mono :=
  [(760570424890436639436801480000, 2, 2), (692658860732105860004832420000, 2, 6), (385912041875710916942495574000, 2,
   17), (1024342840377003727188010584000, 3, 2), (3666636667666072873761042600000, 3, 7),
   (504858491708213071275324660000, 4, 0), (3640462166844715921904122200000, 4, 4), (14812116092533193059529974980, 4,
   16), (858208502524634559298385658000, 4, 26), (1069278269574452430934596792000, 5, 2),
   (989114285590287503113789140000, 6, 3), (1528768005642484201812360780000, 6, 26), (79969338968368518147624163200, 7,
   0), (56812127900558462350333615200, 8, 2), (71327852494724093899798003200, 9, 26), (995176829524252004150588340, 11,
   1), (297009885387236613272493813, 12, 26)]

theorem p0_same : same ((6250000000000000000000000000 : ℕ) : ℤ) 0 0 0 0 (tabP (3005182011741 / 31250000000) 0) p0P p0N = true := by decide +kernel

def p0 : E := .mono p0P p0N 12 26
theorem p0_ok : p0.ok = true := by decide +kernel

def p0_tree : Tree := .sx (.sx .leaf .leaf) .leaf
theorem p0_check : check 13 27 p0 [] p0_tree 3000 14081 10000 7629 1 10000 = true := by decide +kernel

def p2_tree : Tree := .sy .leaf (.sy .leaf (.sy .leaf .leaf))
theorem p2_check : check 13 27 p1 [] p2_tree 23726 274 10000 7496 2889 10000 = true := by decide +kernel

variable {x y : ℝ}

theorem z1_pos (h0 : 0.3 ≤ x) (h1 : x ≤ 550 / 322) (h2 : 647.096 / 1073.15 ≤ y) (h3 : y ≤ 647.096 / 623.15) :
    1 < region3Log + x * dpoly region3 1 0 x y - x * y * dpoly region3 1 1 x y := by
  have hx : 0 < x := by linarith
  have hy : 0 < y := lt_of_lt_of_le (by norm_num) h2
  have h : 0 < z1.eval x y := by
    refine check_sound (by norm_num) (by norm_num) z1_ok z1_tree (by norm_num) (by norm_num) z1_check (fun l hl => by cases hl) ?_ ?_ ?_ ?_
    all_goals norm_num at h0 h1 h2 h3 ⊢
    all_goals linarith
  rw [z1, E.eval, same_eq0 z1_same, tabZ_eq _ hx.ne' hy.ne'] at h
  have := pos_of_mul_pos_right h (by norm_num)
  push_cast at this
  linarith

theorem z2_pos (h0 : 550 / 322 ≤ x) (h1 : x ≤ 764 / 322) (h2 : 647.096 / 848.15 ≤ y) (h3 : y ≤ 647.096 / 623.15) :
    1 / 10 < region3Log + x * dpoly region3 1 0 x y - x * y * dpoly region3 1 1 x y := by
  have hx : 0 < x := lt_of_lt_of_le (by norm_num) h0
  have hy : 0 < y := lt_of_lt_of_le (by norm_num) h2
  have h : 0 < z2.eval x y := by
    refine check_sound (by norm_num) (by norm_num) z2_ok z2_tree (by norm_num) (by norm_num) z2_check (fun l hl => by cases hl) ?_ ?_ ?_ ?_
    all_goals norm_num at h0 h1 h2 h3 ⊢
    all_goals linarith
  rw [z2, E.eval, same_eq0 z2_same, tabZ_eq _ hx.ne' hy.ne'] at h
  have := pos_of_mul_pos_right h (by norm_num)
  push_cast at this
  linarith

private theorem p_pos (hx : 0 < x) (hy : 0 < y) (h : 0 < p1.eval x y) : 100 < P x y := by
  rw [p1, E.eval, same_eq0 p1_same, tabP_eq _ _ hx.ne'] at h
  have := pos_of_mul_pos_right h (by norm_num)
  push_cast at this
  rw [P, lt_div_iff₀ hy]
  linarith

theorem p_848 (h0 : 550 / 322 ≤ x) (h1 : x ≤ 764 / 322) (h2 : 647.096 / 863.2 ≤ y) (h3 : y ≤ 647.096 / 848.15) : 100 < P x y := by
  refine p_pos (lt_of_lt_of_le (by norm_num) h0) (lt_of_lt_of_le (by norm_num) h2) ?_
  refine check_sound (by norm_num) (by norm_num) p1_ok p1_tree (by norm_num) (by norm_num) p1_check (fun l hl => by cases hl) ?_ ?_ ?_ ?_
  all_goals norm_num at h0 h1 h2 h3 ⊢
  all_goals linarith

theorem p_light (h0 : 0.3 ≤ x) (h1 : x ≤ 550 / 322) : 0 < P x (647.096 / 848.15) := by
  have hx : 0 < x := by linarith
  have h : 0 < p0.eval x (647.096 / 848.15) := by
    refine check_sound (by norm_num) (by norm_num) p0_ok p0_tree (by norm_num) (by norm_num) p0_check (fun l hl => by cases hl) ?_ ?_ ?_ ?_
    all_goals norm_num at h0 h1 ⊢
    all_goals linarith
  rw [p0, E.eval, same_eq0 p0_same, tabP_eq _ _ hx.ne'] at h
  have := pos_of_mul_pos_right h (by norm_num)
  push_cast at this
  rw [P]
  refine div_pos ?_ (by norm_num)
  linarith

theorem p_dense (h0 : 764 / 322 ≤ x) (h1 : x ≤ 2.4) (h2 : 647.096 / 863.2 ≤ y) (h3 : y ≤ 647.096 / 623.15) : 100 < P x y := by
  refine p_pos (lt_of_lt_of_le (by norm_num) h0) (lt_of_lt_of_le (by norm_num) h2) ?_
  refine check_sound (by norm_num) (by norm_num) p1_ok p2_tree (by norm_num) (by norm_num) p2_check (fun l hl => by cases hl) ?_ ?_ ?_ ?_
  all_goals norm_num at h0 h1 h2 h3 ⊢
  all_goals linarith

end PyX.Kron.B3

/-! The volumes at the borders with regions 1 and 2, above 22.06 MPa -/

namespace PyX.Kron

open Spec Spec.IF97

def eW623 : E := .sub (.mono [(47130000000000000000000000000000000000, 0, 41)] [] 31 58) R1.e_v
def eW23 : E := .sub (.mul (.mono [(24922404, 0, 0)] [] 0 0) R2.e_v) (.mono [(250000000000000000000000000000000000000000000000, 1, 1), (125000000000000000000000000000000000000000000000, 1, 0)] [] 24 58)
theorem ok_w623 : eW623.ok = true := by decide +kernel
theorem ok_w23 : eW23.ok = true := by decide +kernel
def tree_w623 : Tree := .sx .leaf (.sx .leaf (.sx (.sx .leaf .leaf) (.sx (.sx .leaf .leaf) (.sx .leaf (.sx .leaf .leaf)))))
theorem check_w623 : check 6 6 eW623 [] tree_w623 105 472 100 1002 1 1000 = true := by decide +kernel
def tree_w23 : Tree :=
  .sx (.sy (.sx .leaf (.sy .leaf (.sx .leaf (.sy .leaf .leaf)))) (.sx (.sy (.sx (.sy .leaf (.sx .leaf .leaf)) (.sy .leaf
   (.sx (.sy .leaf (.sx .leaf (.sx (.sy .leaf .skip) .skip))) (.sy (.sx .leaf (.sy .leaf .skip)) .skip)))) (.sx (.sy
   (.sx (.sy .leaf (.sx (.sy .leaf (.sx .leaf .skip)) (.sx (.sy .leaf .skip) .skip))) (.sx (.sy (.sy .leaf .skip) .skip)
   .skip)) .skip) .skip)) (.sy (.sx (.sy (.sx (.sy .leaf .leaf) (.sy .leaf (.sx (.sy .leaf .leaf) (.sy .leaf .skip))))
   (.sx (.sx (.sx (.sy (.sy .leaf .skip) .skip) .skip) .skip) .skip)) (.sy (.sx (.sy .leaf .skip) (.sy (.sx (.sy .leaf
   (.sx .leaf .skip)) (.sy .leaf .skip)) .skip)) .skip)) .skip))) (.sy (.sx (.sy .leaf (.sx (.sy .leaf (.sx (.sy .leaf
   .leaf) (.sy .leaf (.sx .leaf (.sy .leaf (.sx .leaf .skip)))))) (.sy .leaf (.sx (.sy .leaf (.sx (.sy .leaf .skip) (.sy
   .leaf .skip))) (.sy .leaf .skip))))) (.sy .leaf (.sx (.sy .leaf (.sx (.sy (.sx .leaf (.sy .leaf (.sx .leaf .skip)))
   .skip) (.sy (.sx (.sy .leaf .skip) (.sy .leaf .skip)) .skip))) (.sy (.sx (.sy .leaf .leaf) (.sy .leaf (.sx (.sy .leaf
   (.sx .leaf (.sy .leaf .skip))) (.sy .leaf (.sx (.sy .leaf .skip) (.sy (.sx .leaf (.sy .leaf .skip)) .skip)))))) (.sx
   (.sx (.sx (.sy (.sy (.sy .leaf .skip) .skip) .skip) .skip) .skip) .skip))))) (.sx (.sx (.sx (.sx (.sx (.sy (.sy (.sy
   (.sy .leaf .skip) .skip) .skip) .skip) .skip) .skip) .skip) .skip) .skip))
theorem check_w23 : check 6 12 eW23 R2.lims tree_w23 220 780 10 0 37 100 = true := by decide +kernel

variable {p T : ℝ}

theorem v1_623_high (h0 : 22.06 ≤ p) (h1 : p ≤ 100) : gamma1.v p 623.15 < 0.00164 := by
  have hx : 22.06 / 16.53 ≤ p / 16.53 := div_le_div_of_nonneg_right h0 (by norm_num)
  have hx' : p / 16.53 ≤ 100 / 16.53 := div_le_div_of_nonneg_right h1 (by norm_num)
  have a0 := at_temp (by norm_num) (by norm_num) ok_w623 check_w623 (by norm_num) (y := 1386 / 623.15 - 1.222) h1
    (by norm_num at hx ⊢; linarith) (by norm_num) (by norm_num)
  have e0 := R1.v_eq (π := p / 16.53) (τ := 1386 / 623.15) (by norm_num at hx' ⊢; intro h; linarith) (by norm_num)
  simp only [eW623, E.eval, e0, evalN_cons, evalN_nil] at a0
  have k0 : (0 : ℝ) < (1386 / 623.15 - 1.222) ^ 41 := by norm_num
  have hp : gamma1.ps = 16.53 := rfl
  have hT : gamma1.Ts = 1386 := rfl
  simp only [Gamma.v, hp, hT]
  generalize gamma1.gp (p / 16.53) (1386 / 623.15) = g0 at *
  have b0 : g0 < 0.09426 := by
    generalize ((1386 : ℝ) / 623.15 - 1.222) ^ 41 = w at *
    push_cast at a0
    by_contra hc
    nlinarith
  rw [div_lt_iff₀ (by norm_num)]
  norm_num [R] at b0 ⊢
  linarith

theorem v2_gt_high (hv : Vapour p T) (h0 : 22.06 ≤ p) (hT : 623.15 ≤ T) : 0.0025 < gamma2.v p T := by
  have hT0 : 0 < T := by linarith
  have a1 : 540 / 1073.15 ≤ 540 / T := div_le_div_of_nonneg_left (by norm_num) hT0 hv.T1
  have a2 : 540 / T ≤ 540 / 623.15 := div_le_div_of_nonneg_left (by norm_num) (by norm_num) hT
  have h : 0 < eW23.eval p (540 / T - 1 / 2) := by
    refine check_sound (by norm_num) (by norm_num) ok_w23 tree_w23 (by norm_num) (by norm_num) check_w23 (chk2_sound R2.lims_ok hv) ?_ ?_ ?_ ?_
    · norm_num at h0 ⊢; linarith
    · have := hv.p1; norm_num; linarith
    · norm_num at a1 ⊢; linarith
    · norm_num at a2 ⊢; linarith
  have e0 := R2.v_eq hv.p0.ne' (R2.y_pos hv).ne'
  have e : 540 / T - 1 / 2 + 1 / 2 = 540 / T := by ring
  rw [e] at e0
  simp only [eW23, E.eval, e0, evalN_cons, evalN_nil] at h
  have hp : gamma2.ps = 1 := rfl
  have hT' : gamma2.Ts = 540 := rfl
  simp only [Gamma.v, hp, hT', div_one]
  have t0 : T * (540 / T) = 540 := by field_simp
  generalize 540 / T = τ at *
  generalize gamma2.gp p τ = g at *
  have hp0 := hv.p0
  have k : 0 < p * (249.22404 * g - 2.5 * τ) := by push_cast at h; nlinarith
  have k' : 0 < 249.22404 * g - 2.5 * τ := pos_of_mul_pos_right k hp0.le
  rw [lt_div_iff₀ (by norm_num)]
  have : 0 < T * (249.22404 * g - 2.5 * τ) := mul_pos hT0 k'
  norm_num [R] at *
  linarith

end PyX.Kron
