import Verif.Lemmas.Comp
import Verif.Lemmas.KronSat
import Verif.Lemmas.GammaDefs

/-!
# Region 2 in the coordinates of the checker of the backward equations

`x = p` and `y = 540/T - 1/2`.
-/

namespace PyX.Kron

open Spec.IF97

/-- the sign of odd powers of the second variable changed -/
def flipJ (t : Term) : Term := ⟨t.I, t.J, if t.J % 2 = 0 then t.n else -t.n⟩

theorem dpoly_flipJ (ts : List Term) (x y : ℝ) : dpoly (ts.map flipJ) 0 0 x y = dpoly ts 0 0 x (-y) := by
  induction ts with
  | nil => simp [dpoly]
  | cons t ts ih =>
    have ed : ∀ (t : Term) (ts : List Term) (x y : ℝ), dpoly (t :: ts) 0 0 x y = Term.d t 0 0 x y + dpoly ts 0 0 x y := by
      intros; simp [dpoly]
    rw [List.map_cons, ed, ed, ih]
    congr 1
    simp only [Term.d, flipJ, ff, one_mul, Nat.cast_zero, sub_zero]
    rcases Int.even_or_odd t.J with h | h
    · rw [if_pos (Int.even_iff.1 h), h.neg_zpow]
    · rw [if_neg (by rw [Int.odd_iff.1 h]; norm_num), h.neg_zpow]
      push_cast; ring

/-- the exponents of the first variable raised -/
def shiftI (k : ℕ) (t : Term) : Term := ⟨t.I + k, t.J, t.n⟩

theorem dpoly_shiftI (k : ℕ) (ts : List Term) {x : ℝ} (hx : x ≠ 0) (y : ℝ) :
    dpoly (ts.map (shiftI k)) 0 0 x y = x ^ k * dpoly ts 0 0 x y := by
  induction ts with
  | nil => simp [dpoly]
  | cons t ts ih =>
    have ed : ∀ (t : Term) (ts : List Term) (x y : ℝ), dpoly (t :: ts) 0 0 x y = Term.d t 0 0 x y + dpoly ts 0 0 x y := by
      intros; simp [dpoly]
    rw [List.map_cons, ed, ed, ih]
    simp only [Term.d, shiftI, ff, one_mul, Nat.cast_zero, sub_zero]
    rw [zpow_add₀ hx, zpow_natCast]
    ring

/-- the same for the second variable -/
def shiftJ (k : ℕ) (t : Term) : Term := ⟨t.I, t.J + k, t.n⟩

theorem dpoly_shiftJ (k : ℕ) (ts : List Term) (x : ℝ) {y : ℝ} (hy : y ≠ 0) :
    dpoly (ts.map (shiftJ k)) 0 0 x y = y ^ k * dpoly ts 0 0 x y := by
  induction ts with
  | nil => simp [dpoly]
  | cons t ts ih =>
    have ed : ∀ (t : Term) (ts : List Term) (x y : ℝ), dpoly (t :: ts) 0 0 x y = Term.d t 0 0 x y + dpoly ts 0 0 x y := by
      intros; simp [dpoly]
    rw [List.map_cons, ed, ed, ih]
    simp only [Term.d, shiftJ, ff, one_mul, Nat.cast_zero, sub_zero]
    rw [zpow_add₀ hy, zpow_natCast]
    ring

end PyX.Kron

namespace PyX.Kron.B2

open Spec Spec.IF97 Spec.Sat

/-- `(2y + 1)⁶` -/
def l6 : List Mono :=
  [(1, 0, 0), (12, 0, 1), (60, 0, 2), (160, 0, 3), (240, 0, 4), (192, 0, 5), (64, 0, 6)]

/-- `(2y + 1)⁵` -/
def l5 : List Mono :=
  [(1, 0, 0), (10, 0, 1), (40, 0, 2), (80, 0, 3), (80, 0, 4), (32, 0, 5)]

def Ip : List Mono :=
  [(16758916678810700250000000000000000000000000, 0, 0), (180764712454214484000000000000000000000000000, 0, 1),
    (808722394934246268000000000000000000000000000, 0, 2), (1920330247308306352000000000000000000000000000, 0, 3),
    (2560147472541254680000000000000000000000000000, 0, 4), (1774316751007512768000000000000000000000000000, 0, 5),
    (546860123813338048000000000000000000000000000, 0, 6), (4083545040634944000000000000000000000000000, 0, 8)]

def In : List Mono :=
  [(20028869387248384000000000000000000000000000, 0, 7)]

def Jp : List Mono :=
  [(36923827977259681500000000000000000000000000, 0, 0), (348895992081082896000000000000000000000000000, 0, 1),
    (1300482800987505432000000000000000000000000000, 0, 2), (2364702796125327168000000000000000000000000000, 0, 3),
    (2044354897704122320000000000000000000000000000, 0, 4), (543940732056157952000000000000000000000000000, 0, 5),
    (2722363360423296000000000000000000000000000, 0, 8)]

def Jn : List Mono :=
  [(44578793189166208000000000000000000000000000, 0, 6), (7292071333200896000000000000000000000000000, 0, 7)]

def Hp : List Mono :=
  [(438706672844350000000000000000000000, 3, 0), (25581435704570000000000000000000000, 4, 1),
    (1446761181555210000000000000000000000, 4, 2), (16045453436362700000000000000000000000, 5, 6),
    (90049690883672000000000000000000, 8, 7), (257526266427144000000000000000000000, 9, 12),
    (416278608406960000000000, 10, 3), (5346515939704500000000000000000000000000000, 16, 49), (17837169071084200000,
    20, 19), (10720260906681200000000000000000, 20, 34), (200482822351322100000000000000000000000, 22, 52),
    (1900277875471586, 24, 25), (2216588614031120000000000000, 24, 39)]

def Hn : List Mono :=
  [(17834862292358000000000000000000000000000, 1, 0), (91992027392730000000000000000000000000000, 1, 1),
    (172743777250296000000000000000000000000000, 1, 2), (301951672367580000000000000000000000000000, 1, 5),
    (33032641670203000000000000000000000000, 2, 0), (378979750326300000000000000000000000000, 2, 1),
    (15757110897342000000000000000000000000000, 2, 3), (306581069554011000000000000000000000000000, 2, 6),
    (960283724907132000000000000000000000000, 2, 35), (96833031715710000000000000000000000000, 3, 2),
    (9020354725288800000000000000000000000000, 3, 5), (1423388874692715000000000000000000000000000, 3, 34),
    (788473095593670000000000000000000, 4, 0), (50144299353183000000000000000000, 6, 2),
    (33874355714168000000000000000000000000000, 6, 15), (836350967693640000000000000000000000000000000, 6, 34),
    (13883989789011100000000000000000000000, 7, 10), (973671060893475000000000000000000000000000, 7, 24),
    (296320827232792800000000000000000000000000000, 8, 35), (1023474709592900000000000000000, 10, 9),
    (14025451131315400000000000000000000, 10, 13), (2345604350762565000000000000000000, 16, 28),
    (19187482827277470000000000000000000000000000, 18, 56), (201611844951398400000000000000000000000, 20, 47),
    (1240176623398419000, 21, 20), (49797574845255900000000000000, 23, 38), (54734430199901800000000000000000000000,
    24, 57)]

def Fp : List Mono :=
  [(20481737692309000000000000000000000, 3, 0), (438706672844350000000000000000000000, 3, 1),
    (12790717852285000000000000000000000, 4, 2), (482253727185070000000000000000000000, 4, 3),
    (2292207633766100000000000000000000000, 5, 7), (11256211360459000000000000000000, 8, 8),
    (19809712802088000000000000000000000, 9, 13), (104069652101740000000000, 10, 4),
    (106930318794090000000000000000000000000000, 16, 50), (891858453554210000, 20, 20),
    (306293168762320000000000000000, 20, 35), (3782694761345700000000000000000000000, 22, 53), (73087610595061, 24,
    26), (55414715350778000000000000, 24, 40)]

def Fn : List Mono :=
  [(1773174247321300000000000000000000000000, 1, 0), (17834862292358000000000000000000000000000, 1, 1),
    (45996013696365000000000000000000000000000, 1, 2), (57581259083432000000000000000000000000000, 1, 3),
    (50325278727930000000000000000000000000000, 1, 6), (33032641670203000000000000000000000000, 2, 1),
    (189489875163150000000000000000000000000, 2, 2), (3939277724335500000000000000000000000000, 2, 4),
    (43797295650573000000000000000000000000000, 2, 7), (26674547914087000000000000000000000000, 2, 36),
    (32277677238570000000000000000000000000, 3, 3), (1503392454214800000000000000000000000000, 3, 6),
    (40668253562649000000000000000000000000000, 3, 35), (788473095593670000000000000000000, 4, 1),
    (16714766451061000000000000000000, 6, 3), (2117147232135500000000000000000000000000, 6, 16),
    (23895741934104000000000000000000000000000000, 6, 35), (5905956432427000000000000, 7, 0),
    (1262180889910100000000000000000000000, 7, 11), (38946842435739000000000000000000000000000, 7, 25),
    (8231134089799800000000000000000000000000000, 8, 36), (102347470959290000000000000000, 10, 10),
    (1001817937951100000000000000000000, 10, 14), (80882908646985000000000000000000, 16, 29),
    (336622505741710000000000000000000000000000, 18, 57), (4200246769820800000000000000000000000, 20, 48),
    (59056029685639000, 21, 21), (1276860893468100000000000000, 23, 39), (943697072412100000000000000000000000, 24,
    58)]

theorem same_H : same 1000000000000000000000000000000000000000000 0 1 0 0 region2 Hp Hn = true := by decide +kernel
theorem same_F : same 1000000000000000000000000000000000000000000 0 0 0 0 region2 Fp Fn = true := by decide +kernel

theorem l6_eq (x y : ℝ) : evalN l6 x y = (2 * y + 1) ^ 6 := by
  simp only [l6, evalN_cons', evalN_nil']; push_cast; ring

theorem l5_eq (x y : ℝ) : evalN l5 x y = (2 * y + 1) ^ 5 := by
  simp only [l5, evalN_cons', evalN_nil']; push_cast; ring

theorem ideal_h (x : ℝ) {y : ℝ} (h : y + 1 / 2 ≠ 0) :
    evalN Ip x y - evalN In x y = 1000000000000000000000000000000000000000000 * ((2 * y + 1) ^ 6 * dpoly region2Ideal 0 1 1 (y + 1 / 2)) := by
  generalize ht : y + 1 / 2 = t at *
  obtain rfl : y = t - 1 / 2 := by linarith
  simp only [Ip, In, evalN_cons', evalN_nil', dpoly, Term.d, region2Ideal, ff, List.map_cons, List.map_nil, List.sum_cons,
    List.sum_nil, one_zpow]
  have e : ∀ (m : ℤ) (n : ℕ), m + 6 = n → t ^ 6 * t ^ m = t ^ n := by
    intro m n h'
    rw [← zpow_natCast t n, ← h', add_comm, zpow_add₀ h]; rfl
  have e0 := e (0 - (1 : ℕ)) 5 (by norm_num)
  have e1 := e (1 - (1 : ℕ)) 6 (by norm_num)
  have e2 := e (-5 - (1 : ℕ)) 0 (by norm_num)
  have e3 := e (-4 - (1 : ℕ)) 1 (by norm_num)
  have e4 := e (-3 - (1 : ℕ)) 2 (by norm_num)
  have e5 := e (-2 - (1 : ℕ)) 3 (by norm_num)
  have e6 := e (-1 - (1 : ℕ)) 4 (by norm_num)
  have e7 := e (2 - (1 : ℕ)) 7 (by norm_num)
  have e8 := e (3 - (1 : ℕ)) 8 (by norm_num)
  have h2 : (2 * (t - 1 / 2) + 1) ^ 6 = 64 * t ^ 6 := by ring
  rw [h2]
  have dist : ∀ a₀ a₁ a₂ a₃ a₄ a₅ a₆ a₇ a₈ : ℝ, 64 * t ^ 6 * (a₀ + (a₁ + (a₂ + (a₃ + (a₄ + (a₅ + (a₆ + (a₇ + (a₈ + 0)))))))))
      = 64 * (t ^ 6 * a₀ + t ^ 6 * a₁ + t ^ 6 * a₂ + t ^ 6 * a₃ + t ^ 6 * a₄ + t ^ 6 * a₅ + t ^ 6 * a₆ + t ^ 6 * a₇ + t ^ 6 * a₈) := by
    intros; ring
  rw [dist]
  have mv : ∀ a b c d : ℝ, t ^ 6 * (a * b * (c * d)) = a * b * c * (t ^ 6 * d) := by intros; ring
  simp only [mv, e0, e1, e2, e3, e4, e5, e6, e7, e8]
  push_cast
  ring

theorem ideal_s (x : ℝ) {y : ℝ} (h : y + 1 / 2 ≠ 0) :
    evalN Jp x y - evalN Jn x y = 2000000000000000000000000000000000000000000 * ((2 * y + 1) ^ 5 * ((y + 1 / 2) * dpoly region2Ideal 0 1 1 (y + 1 / 2) -
      dpoly region2Ideal 0 0 1 (y + 1 / 2))) := by
  generalize ht : y + 1 / 2 = t at *
  obtain rfl : y = t - 1 / 2 := by linarith
  simp only [Jp, Jn, evalN_cons', evalN_nil', dpoly, Term.d, region2Ideal, ff, List.map_cons, List.map_nil, List.sum_cons,
    List.sum_nil, one_zpow]
  have e : ∀ (m : ℤ) (n : ℕ), m + 6 = n → t ^ 6 * t ^ m = t ^ n := by
    intro m n h'
    rw [← zpow_natCast t n, ← h', add_comm, zpow_add₀ h]; rfl
  have e0 := e (0 - (1 : ℕ)) 5 (by norm_num)
  have e1 := e (1 - (1 : ℕ)) 6 (by norm_num)
  have e2 := e (-5 - (1 : ℕ)) 0 (by norm_num)
  have e3 := e (-4 - (1 : ℕ)) 1 (by norm_num)
  have e4 := e (-3 - (1 : ℕ)) 2 (by norm_num)
  have e5 := e (-2 - (1 : ℕ)) 3 (by norm_num)
  have e6 := e (-1 - (1 : ℕ)) 4 (by norm_num)
  have e7 := e (2 - (1 : ℕ)) 7 (by norm_num)
  have e8 := e (3 - (1 : ℕ)) 8 (by norm_num)
  have f : ∀ (m : ℤ) (n : ℕ), m + 5 = n → t ^ 5 * t ^ m = t ^ n := by
    intro m n h'
    rw [← zpow_natCast t n, ← h', add_comm, zpow_add₀ h]; rfl
  have f0 := f (0 - (0 : ℕ)) 5 (by norm_num)
  have f1 := f (1 - (0 : ℕ)) 6 (by norm_num)
  have f2 := f (-5 - (0 : ℕ)) 0 (by norm_num)
  have f3 := f (-4 - (0 : ℕ)) 1 (by norm_num)
  have f4 := f (-3 - (0 : ℕ)) 2 (by norm_num)
  have f5 := f (-2 - (0 : ℕ)) 3 (by norm_num)
  have f6 := f (-1 - (0 : ℕ)) 4 (by norm_num)
  have f7 := f (2 - (0 : ℕ)) 7 (by norm_num)
  have f8 := f (3 - (0 : ℕ)) 8 (by norm_num)
  have h2 : (2 * (t - 1 / 2) + 1) ^ 5 = 32 * t ^ 5 := by ring
  rw [h2]
  have dist : ∀ a₀ a₁ a₂ a₃ a₄ a₅ a₆ a₇ a₈ b₀ b₁ b₂ b₃ b₄ b₅ b₆ b₇ b₈ : ℝ,
      32 * t ^ 5 * (t * (a₀ + (a₁ + (a₂ + (a₃ + (a₄ + (a₅ + (a₆ + (a₇ + (a₈ + 0))))))))) -
        (b₀ + (b₁ + (b₂ + (b₃ + (b₄ + (b₅ + (b₆ + (b₇ + (b₈ + 0))))))))))
      = 32 * (t ^ 6 * a₀ + t ^ 6 * a₁ + t ^ 6 * a₂ + t ^ 6 * a₃ + t ^ 6 * a₄ + t ^ 6 * a₅ + t ^ 6 * a₆ + t ^ 6 * a₇ + t ^ 6 * a₈) -
        32 * (t ^ 5 * b₀ + t ^ 5 * b₁ + t ^ 5 * b₂ + t ^ 5 * b₃ + t ^ 5 * b₄ + t ^ 5 * b₅ + t ^ 5 * b₆ + t ^ 5 * b₇ + t ^ 5 * b₈) := by
    intros; ring
  rw [dist]
  have mv : ∀ a b c d : ℝ, t ^ 6 * (a * b * (c * d)) = a * b * c * (t ^ 6 * d) := by intros; ring
  have mv' : ∀ a b c d : ℝ, t ^ 5 * (a * b * (c * d)) = a * b * c * (t ^ 5 * d) := by intros; ring
  simp only [mv, mv', e0, e1, e2, e3, e4, e5, e6, e7, e8, f0, f1, f2, f3, f4, f5, f6, f7, f8]
  push_cast
  ring

variable {p T : ℝ}

theorem y_pos (hv : Vapour p T) : 0 < 540 / T - 1 / 2 := by
  have hT : 0 < T := by linarith [hv.T0]
  have h1 : 540 / 1073.15 ≤ 540 / T := div_le_div_of_nonneg_left (by norm_num) hT hv.T1
  norm_num at h1 ⊢; linarith

/-- `(2y + 1)⁶ γ_τ`, up to a factor -/
def eH : E := .add (.mono Ip In 24 63) (.mul (.mono l6 [] 0 6) (.mono Hp Hn 24 57))

theorem eH_eval (hv : Vapour p T) : eH.eval p (540 / T - 1 / 2) =
    1000000000000000000000000000000000000000000 * ((2 * (540 / T - 1 / 2) + 1) ^ 6 * (gamma2.h p T / (R * 540))) := by
  have y0 := y_pos hv
  have h := same_eq same_H hv.p0.ne' y0.ne'
  have h' := ideal_h p (y := 540 / T - 1 / 2) (by linarith)
  have hg : gamma2.h p T / (R * 540) = dpoly region2Ideal 0 1 1 (540 / T) + dpoly region2 0 1 p (540 / T - 1 / 2) := by
    have r := Gamma.R_pos
    rw [div_eq_iff (by positivity)]
    simp only [Gamma.h, gamma2, div_one]
    norm_num
    ring
  have e1 : 540 / T - 1 / 2 + 1 / 2 = 540 / T := by ring
  rw [e1] at h'
  simp only [eH, E.eval, evalN_nil']
  rw [hg, h', l6_eq, h]
  push_cast
  ring

/-- `(2y + 1)⁵ (τ γ_τ - γ + ln p)`, up to a factor -/
def eS : E := .add (.mono Jp Jn 24 63) (.mul (.mono l5 [] 0 5)
  (.sub (.mul (.mono [(1, 0, 0), (2, 0, 1)] [] 0 1) (.mono Hp Hn 24 57)) (.mul (cst 2) (.mono Fp Fn 24 58))))

theorem eS_eval (hv : Vapour p T) : eS.eval p (540 / T - 1 / 2) =
    2000000000000000000000000000000000000000000 * ((2 * (540 / T - 1 / 2) + 1) ^ 5 * (gamma2.s p T / R + Real.log p)) := by
  have y0 := y_pos hv
  have h := same_eq same_H hv.p0.ne' y0.ne'
  have hF := same_eq same_F hv.p0.ne' y0.ne'
  have h' := ideal_s p (y := 540 / T - 1 / 2) (by linarith)
  have hg : gamma2.s p T / R = 540 / T * (dpoly region2Ideal 0 1 1 (540 / T) + dpoly region2 0 1 p (540 / T - 1 / 2)) -
      (Real.log p + dpoly region2Ideal 0 0 1 (540 / T) + dpoly region2 0 0 p (540 / T - 1 / 2)) := by
    rw [Gamma.s, mul_div_cancel_left₀ _ Gamma.R_pos.ne']
    simp only [gamma2, div_one]
    norm_num
  have e1 : 540 / T - 1 / 2 + 1 / 2 = 540 / T := by ring
  rw [e1] at h'
  simp only [eS, E.eval, evalN_cons', evalN_nil', eval_cst]
  rw [hg, h', l5_eq, h, hF]
  push_cast
  ring

/-! ## Pressure and temperature -/

def qp : Quot := ⟨.mono [(1, 1, 0)] [] 1 0, [(1, 0, 0)], 0, 0⟩

theorem qp_eval (x y : ℝ) : qp.eval x y = x := by
  simp [qp, Quot.eval, E.eval]

def qT : Quot := ⟨.mono [(1080, 0, 0)] [] 0 0, [(1, 0, 0), (2, 0, 1)], 0, 1⟩

theorem qT_eval (hv : Vapour p T) (x : ℝ) : qT.eval x (540 / T - 1 / 2) = T := by
  have hT : 0 < T := by linarith [hv.T0]
  have y0 := y_pos hv
  simp only [qT, Quot.eval, E.eval, evalN_cons', evalN_nil']
  push_cast
  rw [div_eq_iff (by positivity)]
  field_simp
  ring

/-! ## Enthalpy -/

/-- `gamma2.h p T / 2000` -/
def qh : Quot := ⟨.mul (cst 6230601) eH, [(50000000000000000000000000000000000000000000000000, 0, 0), (600000000000000000000000000000000000000000000000000, 0, 1), (3000000000000000000000000000000000000000000000000000, 0, 2), (8000000000000000000000000000000000000000000000000000, 0, 3), (12000000000000000000000000000000000000000000000000000, 0, 4), (9600000000000000000000000000000000000000000000000000, 0, 5), (3200000000000000000000000000000000000000000000000000, 0, 6)], 0, 6⟩

theorem qh_eval (hv : Vapour p T) : qh.eval p (540 / T - 1 / 2) = gamma2.h p T / 2000 := by
  have y0 := y_pos hv
  have hl : (0 : ℝ) < evalN [(50000000000000000000000000000000000000000000000000, 0, 0), (600000000000000000000000000000000000000000000000000, 0, 1), (3000000000000000000000000000000000000000000000000000, 0, 2), (8000000000000000000000000000000000000000000000000000, 0, 3), (12000000000000000000000000000000000000000000000000000, 0, 4), (9600000000000000000000000000000000000000000000000000, 0, 5), (3200000000000000000000000000000000000000000000000000, 0, 6)] p (540 / T - 1 / 2) := by
    simp only [evalN_cons', evalN_nil']; positivity
  simp only [qh, Quot.eval, E.eval, eval_cst]
  rw [eH_eval hv, div_eq_iff hl.ne', R]
  simp only [evalN_cons', evalN_nil']
  push_cast
  ring

/-- `2.1 - gamma2.h p T / 2000` -/
def qha : Quot := ⟨.sub (.mono [(105000000000000000000000000000000000000000000000000, 0, 0), (1260000000000000000000000000000000000000000000000000, 0, 1), (6300000000000000000000000000000000000000000000000000, 0, 2), (16800000000000000000000000000000000000000000000000000, 0, 3), (25200000000000000000000000000000000000000000000000000, 0, 4), (20160000000000000000000000000000000000000000000000000, 0, 5), (6720000000000000000000000000000000000000000000000000, 0, 6)] [] 24 63) (.mul (cst 6230601) eH), [(50000000000000000000000000000000000000000000000000, 0, 0), (600000000000000000000000000000000000000000000000000, 0, 1), (3000000000000000000000000000000000000000000000000000, 0, 2), (8000000000000000000000000000000000000000000000000000, 0, 3), (12000000000000000000000000000000000000000000000000000, 0, 4), (9600000000000000000000000000000000000000000000000000, 0, 5), (3200000000000000000000000000000000000000000000000000, 0, 6)], 0, 6⟩

theorem qha_eval (hv : Vapour p T) : qha.eval p (540 / T - 1 / 2) = 2.1 - gamma2.h p T / 2000 := by
  have y0 := y_pos hv
  have hl : (0 : ℝ) < evalN [(50000000000000000000000000000000000000000000000000, 0, 0), (600000000000000000000000000000000000000000000000000, 0, 1), (3000000000000000000000000000000000000000000000000000, 0, 2), (8000000000000000000000000000000000000000000000000000, 0, 3), (12000000000000000000000000000000000000000000000000000, 0, 4), (9600000000000000000000000000000000000000000000000000, 0, 5), (3200000000000000000000000000000000000000000000000000, 0, 6)] p (540 / T - 1 / 2) := by
    simp only [evalN_cons', evalN_nil']; positivity
  simp only [qha, Quot.eval, E.eval, eval_cst]
  rw [eH_eval hv, div_eq_iff hl.ne', R]
  simp only [evalN_cons', evalN_nil']
  push_cast
  ring

/-- `2.6 - gamma2.h p T / 2000` -/
def qhb : Quot := ⟨.sub (.mono [(130000000000000000000000000000000000000000000000000, 0, 0), (1560000000000000000000000000000000000000000000000000, 0, 1), (7800000000000000000000000000000000000000000000000000, 0, 2), (20800000000000000000000000000000000000000000000000000, 0, 3), (31200000000000000000000000000000000000000000000000000, 0, 4), (24960000000000000000000000000000000000000000000000000, 0, 5), (8320000000000000000000000000000000000000000000000000, 0, 6)] [] 24 63) (.mul (cst 6230601) eH), [(50000000000000000000000000000000000000000000000000, 0, 0), (600000000000000000000000000000000000000000000000000, 0, 1), (3000000000000000000000000000000000000000000000000000, 0, 2), (8000000000000000000000000000000000000000000000000000, 0, 3), (12000000000000000000000000000000000000000000000000000, 0, 4), (9600000000000000000000000000000000000000000000000000, 0, 5), (3200000000000000000000000000000000000000000000000000, 0, 6)], 0, 6⟩

theorem qhb_eval (hv : Vapour p T) : qhb.eval p (540 / T - 1 / 2) = 2.6 - gamma2.h p T / 2000 := by
  have y0 := y_pos hv
  have hl : (0 : ℝ) < evalN [(50000000000000000000000000000000000000000000000000, 0, 0), (600000000000000000000000000000000000000000000000000, 0, 1), (3000000000000000000000000000000000000000000000000000, 0, 2), (8000000000000000000000000000000000000000000000000000, 0, 3), (12000000000000000000000000000000000000000000000000000, 0, 4), (9600000000000000000000000000000000000000000000000000, 0, 5), (3200000000000000000000000000000000000000000000000000, 0, 6)] p (540 / T - 1 / 2) := by
    simp only [evalN_cons', evalN_nil']; positivity
  simp only [qhb, Quot.eval, E.eval, eval_cst]
  rw [eH_eval hv, div_eq_iff hl.ne', R]
  simp only [evalN_cons', evalN_nil']
  push_cast
  ring

/-- `1.8 - gamma2.h p T / 2000` -/
def qhc : Quot := ⟨.sub (.mono [(90000000000000000000000000000000000000000000000000, 0, 0), (1080000000000000000000000000000000000000000000000000, 0, 1), (5400000000000000000000000000000000000000000000000000, 0, 2), (14400000000000000000000000000000000000000000000000000, 0, 3), (21600000000000000000000000000000000000000000000000000, 0, 4), (17280000000000000000000000000000000000000000000000000, 0, 5), (5760000000000000000000000000000000000000000000000000, 0, 6)] [] 24 63) (.mul (cst 6230601) eH), [(50000000000000000000000000000000000000000000000000, 0, 0), (600000000000000000000000000000000000000000000000000, 0, 1), (3000000000000000000000000000000000000000000000000000, 0, 2), (8000000000000000000000000000000000000000000000000000, 0, 3), (12000000000000000000000000000000000000000000000000000, 0, 4), (9600000000000000000000000000000000000000000000000000, 0, 5), (3200000000000000000000000000000000000000000000000000, 0, 6)], 0, 6⟩

theorem qhc_eval (hv : Vapour p T) : qhc.eval p (540 / T - 1 / 2) = 1.8 - gamma2.h p T / 2000 := by
  have y0 := y_pos hv
  have hl : (0 : ℝ) < evalN [(50000000000000000000000000000000000000000000000000, 0, 0), (600000000000000000000000000000000000000000000000000, 0, 1), (3000000000000000000000000000000000000000000000000000, 0, 2), (8000000000000000000000000000000000000000000000000000, 0, 3), (12000000000000000000000000000000000000000000000000000, 0, 4), (9600000000000000000000000000000000000000000000000000, 0, 5), (3200000000000000000000000000000000000000000000000000, 0, 6)] p (540 / T - 1 / 2) := by
    simp only [evalN_cons', evalN_nil']; positivity
  simp only [qhc, Quot.eval, E.eval, eval_cst]
  rw [eH_eval hv, div_eq_iff hl.ne', R]
  simp only [evalN_cons', evalN_nil']
  push_cast
  ring

end PyX.Kron.B2
