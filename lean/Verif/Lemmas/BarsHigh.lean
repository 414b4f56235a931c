import Verif.Lemmas.CellsData

/-!
# Enthalpy and entropy at the borders of region 3

On the isotherm 623.15 K of region 1 and along the border of region 2.
-/

namespace PyX.Kron

open Spec Spec.IF97 Spec.Sat

variable {p T : ℝ}

/-- `h/2500 + 1 - 1.6` for the liquid, up to a factor -/
def eH1w : E := .sub B1.qh.n (.mono [(500000000000000000000000000000000000000000000000, 0, 16)] [] 32 58)

theorem h1_of_eH1w (hv : Liquid p T) (h : 0 < eH1w.eval (7.1 - p / 16.53) (B1.z T)) : 1500 < gamma1.h p T := by
  have z0 := B1.z_pos hv
  simp only [eH1w, E.eval, qh1_n hv, evalN_cons', evalN_nil'] at h
  push_cast at h
  have h2 : 0 < 312500000000000000000000000000000000000000000000 * (B1.z T ^ 16 * (gamma1.h p T / 2500 - 0.6)) := by
    refine h.trans_eq ?_
    ring
  have := pos_of_mul_pos_right (pos_of_mul_pos_right h2 (by norm_num)) (by positivity)
  linarith

def barsLw : List Bar :=
  [⟨1650, 1660, 62315, 62315, ⟨609576, 606, 100000, 997821, 1, 1000000⟩⟩,
   ⟨1660, 1671, 62315, 62315, ⟨608911, 666, 100000, 997821, 1, 1000000⟩⟩,
   ⟨1671, 1683, 62315, 62315, ⟨608185, 727, 100000, 997821, 1, 1000000⟩⟩,
   ⟨1683, 1697, 62315, 62315, ⟨607338, 848, 100000, 997821, 1, 1000000⟩⟩,
   ⟨1697, 1712, 62315, 62315, ⟨606430, 909, 100000, 997821, 1, 1000000⟩⟩,
   ⟨1712, 1729, 62315, 62315, ⟨605402, 1029, 100000, 997821, 1, 1000000⟩⟩,
   ⟨1729, 1748, 62315, 62315, ⟨604252, 1151, 100000, 997821, 1, 1000000⟩⟩,
   ⟨1748, 1770, 62315, 62315, ⟨602921, 1332, 100000, 997821, 1, 1000000⟩⟩,
   ⟨1770, 1794, 62315, 62315, ⟨601470, 1452, 100000, 997821, 1, 1000000⟩⟩,
   ⟨1794, 1821, 62315, 62315, ⟨599836, 1635, 100000, 997821, 1, 1000000⟩⟩,
   ⟨1821, 1852, 62315, 62315, ⟨597961, 1876, 100000, 997821, 1, 1000000⟩⟩,
   ⟨1852, 1886, 62315, 62315, ⟨595904, 2058, 100000, 997821, 1, 1000000⟩⟩,
   ⟨1886, 1924, 62315, 62315, ⟨593605, 2300, 100000, 997821, 1, 1000000⟩⟩,
   ⟨1924, 1967, 62315, 62315, ⟨591004, 2602, 100000, 997821, 1, 1000000⟩⟩,
   ⟨1967, 2015, 62315, 62315, ⟨588100, 2905, 100000, 997821, 1, 1000000⟩⟩,
   ⟨2015, 2069, 62315, 62315, ⟨584833, 3268, 100000, 997821, 1, 1000000⟩⟩,
   ⟨2069, 2130, 62315, 62315, ⟨581143, 3691, 100000, 997821, 1, 1000000⟩⟩,
   ⟨2130, 2198, 62315, 62315, ⟨577029, 4115, 100000, 997821, 1, 1000000⟩⟩,
   ⟨2198, 2274, 62315, 62315, ⟨572431, 4599, 100000, 997821, 1, 1000000⟩⟩,
   ⟨2274, 2360, 62315, 62315, ⟨567229, 5203, 100000, 997821, 1, 1000000⟩⟩,
   ⟨2360, 2456, 62315, 62315, ⟨561421, 5809, 100000, 997821, 1, 1000000⟩⟩,
   ⟨2456, 2564, 62315, 62315, ⟨554888, 6534, 100000, 997821, 1, 1000000⟩⟩,
   ⟨2564, 2685, 62315, 62315, ⟨547568, 7321, 100000, 997821, 1, 1000000⟩⟩,
   ⟨2685, 2820, 62315, 62315, ⟨539401, 8168, 100000, 997821, 1, 1000000⟩⟩,
   ⟨2820, 2971, 62315, 62315, ⟨530266, 9136, 100000, 997821, 1, 1000000⟩⟩,
   ⟨2971, 3141, 62315, 62315, ⟨519981, 10286, 100000, 997821, 1, 1000000⟩⟩,
   ⟨3141, 3331, 62315, 62315, ⟨508487, 11495, 100000, 997821, 1, 1000000⟩⟩,
   ⟨3331, 3544, 62315, 62315, ⟨495601, 12887, 100000, 997821, 1, 1000000⟩⟩,
   ⟨3544, 3782, 62315, 62315, ⟨481203, 14399, 100000, 997821, 1, 1000000⟩⟩,
   ⟨3782, 4049, 62315, 62315, ⟨465051, 16153, 100000, 997821, 1, 1000000⟩⟩,
   ⟨4049, 4348, 62315, 62315, ⟨446963, 18089, 100000, 997821, 1, 1000000⟩⟩,
   ⟨4348, 4648, 62315, 62315, ⟨428814, 18150, 100000, 997821, 1, 1000000⟩⟩,
   ⟨4648, 4948, 62315, 62315, ⟨410665, 18150, 100000, 997821, 1, 1000000⟩⟩,
   ⟨4948, 5248, 62315, 62315, ⟨392516, 18150, 100000, 997821, 1, 1000000⟩⟩,
   ⟨5248, 5548, 62315, 62315, ⟨374367, 18150, 100000, 997821, 1, 1000000⟩⟩,
   ⟨5548, 5848, 62315, 62315, ⟨356218, 18150, 100000, 997821, 1, 1000000⟩⟩,
   ⟨5848, 6148, 62315, 62315, ⟨338070, 18149, 100000, 997821, 1, 1000000⟩⟩,
   ⟨6148, 6448, 62315, 62315, ⟨319921, 18150, 100000, 997821, 1, 1000000⟩⟩,
   ⟨6448, 6748, 62315, 62315, ⟨301772, 18150, 100000, 997821, 1, 1000000⟩⟩,
   ⟨6748, 7048, 62315, 62315, ⟨283623, 18150, 100000, 997821, 1, 1000000⟩⟩,
   ⟨7048, 7348, 62315, 62315, ⟨265474, 18150, 100000, 997821, 1, 1000000⟩⟩,
   ⟨7348, 7648, 62315, 62315, ⟨247326, 18149, 100000, 997821, 1, 1000000⟩⟩,
   ⟨7648, 7948, 62315, 62315, ⟨229177, 18150, 100000, 997821, 1, 1000000⟩⟩,
   ⟨7948, 8248, 62315, 62315, ⟨211028, 18150, 100000, 997821, 1, 1000000⟩⟩,
   ⟨8248, 8548, 62315, 62315, ⟨192879, 18150, 100000, 997821, 1, 1000000⟩⟩,
   ⟨8548, 8848, 62315, 62315, ⟨174730, 18150, 100000, 997821, 1, 1000000⟩⟩,
   ⟨8848, 9148, 62315, 62315, ⟨156581, 18150, 100000, 997821, 1, 1000000⟩⟩,
   ⟨9148, 9448, 62315, 62315, ⟨138433, 18149, 100000, 997821, 1, 1000000⟩⟩,
   ⟨9448, 9748, 62315, 62315, ⟨120284, 18150, 100000, 997821, 1, 1000000⟩⟩,
   ⟨9748, 10001, 62315, 62315, ⟨104978, 15307, 100000, 997821, 1, 1000000⟩⟩]

theorem barsLw_ok : barsL 62315 eH1w barsLw = true := by decide +kernel

/-- `s/R - c/100` for the liquid, up to a factor -/
def eS1w (c : ℕ) : E := .sub B1.eS (.mono [(Nat.mul c 5000000000000000000000000000000000000000, 0, 17)] [] 32 59)

theorem s1_of_eS1w {c : ℕ} (hv : Liquid p T) (h : 0 < (eS1w c).eval (7.1 - p / 16.53) (B1.z T)) : c / 100 < gamma1.s p T / R := by
  have z0 := B1.z_pos hv
  simp only [eS1w, E.eval, B1.eS_eval hv, evalN_cons', evalN_nil', Nat.mul_eq] at h
  push_cast at h
  have h2 : 0 < 500000000000000000000000000000000000000000 * (B1.z T ^ 17 * (gamma1.s p T / R - c / 100)) := by
    refine h.trans_eq ?_
    ring
  have := pos_of_mul_pos_right (pos_of_mul_pos_right h2 (by norm_num)) (by positivity)
  linarith

/-- `36 - 25 h/2000` for the vapour, up to a factor -/
def eH2w : E := .sub (.mul (cst 36) (.mono den2 [] 24 63)) (.mul (cst 25) B2.qh.n)

theorem h2_of_eH2w (hv : Vapour p T) (h : 0 < eH2w.eval p (540 / T - 1 / 2)) : gamma2.h p T < 2880 := by
  simp only [eH2w, E.eval, eval_cst, qh2_n hv, evalN_nil'] at h
  push_cast at h
  have h2 : 0 < evalN den2 p (540 / T - 1 / 2) * (36 - 25 * (gamma2.h p T / 2000)) := by
    refine h.trans_eq ?_
    ring
  have := pos_of_mul_pos_right h2 (den2_pos p (B2.y_pos hv)).le
  linarith

theorem barsVw_ok : barsV eH2w barsVH = true := by decide +kernel

/-- `c/10 - s/R - ln p` for the vapour, up to a factor -/
def eS2w (c : ℕ) : E := .sub (.mul (cst (Nat.mul c 200000000000000000000000000000000000000000)) (.mono B2.l5 [] 24 63)) B2.eS

theorem s2_of_eS2w {c : ℕ} (hv : Vapour p T) (h : 0 < (eS2w c).eval p (540 / T - 1 / 2)) : gamma2.s p T / R + Real.log p < c / 10 := by
  have y0 := B2.y_pos hv
  simp only [eS2w, E.eval, B2.eS_eval hv, eval_cst, evalN_nil', B2.l5_eq, Nat.mul_eq] at h
  push_cast at h
  have h2 : 0 < 2000000000000000000000000000000000000000000 * ((2 * (540 / T - 1 / 2) + 1) ^ 5 *
      (c / 10 - gamma2.s p T / R - Real.log p)) := by
    refine h.trans_eq ?_
    ring
  have := pos_of_mul_pos_right (pos_of_mul_pos_right h2 (by norm_num)) (by positivity)
  linarith

theorem barsVs_ok : barsV (eS2w 160) barsVH = true := by decide +kernel

theorem barsLw_chain : chainP 1650 barsLw 10001 = true := by decide +kernel
theorem barsLs_ok : barsL 62315 (eS1w 735) barsLw = true := by decide +kernel

/-- up to 70 MPa -/
def barsLo : List Bar := barsLw.take 40

theorem barsLo_chain : chainP 1650 barsLo 7048 = true := by decide +kernel
theorem barsLo_ok : barsL 62315 (eS1w 745) barsLo = true := by decide +kernel

/-- up to the critical pressure -/
def barsLc : List Bar := barsLw.take 19

theorem barsLc_chain : chainP 1650 barsLc 2274 = true := by decide +kernel
theorem barsLc_ok : barsL 62315 (eS1w 785) barsLc = true := by decide +kernel

def barsVc : List Bar :=
  [⟨1648, 1661, 62310, 62350, ⟨1648, 13, 100, 36607, 57, 100000⟩⟩,
   ⟨1652, 1666, 62350, 62400, ⟨1652, 14, 100, 36538, 70, 100000⟩⟩,
   ⟨1657, 1673, 62400, 62460, ⟨1657, 16, 100, 36455, 84, 100000⟩⟩,
   ⟨1664, 1681, 62460, 62540, ⟨1664, 17, 100, 36344, 112, 100000⟩⟩,
   ⟨1672, 1692, 62540, 62640, ⟨1672, 20, 100, 36206, 139, 100000⟩⟩,
   ⟨1683, 1704, 62640, 62750, ⟨1683, 21, 100, 36055, 152, 100000⟩⟩,
   ⟨1695, 1718, 62750, 62875, ⟨1695, 23, 100, 35884, 172, 100000⟩⟩,
   ⟨1709, 1733, 62875, 63000, ⟨1709, 24, 100, 35714, 171, 100000⟩⟩,
   ⟨1724, 1751, 63000, 63150, ⟨1724, 27, 100, 35510, 205, 100000⟩⟩,
   ⟨1742, 1769, 63150, 63300, ⟨1742, 27, 100, 35308, 203, 100000⟩⟩,
   ⟨1760, 1791, 63300, 63475, ⟨1760, 31, 100, 35072, 237, 100000⟩⟩,
   ⟨1782, 1813, 63475, 63650, ⟨1782, 31, 100, 34838, 235, 100000⟩⟩,
   ⟨1804, 1840, 63650, 63850, ⟨1804, 36, 100, 34573, 266, 100000⟩⟩,
   ⟨1831, 1867, 63850, 64050, ⟨1831, 36, 100, 34309, 265, 100000⟩⟩,
   ⟨1858, 1899, 64050, 64275, ⟨1858, 41, 100, 34014, 296, 100000⟩⟩,
   ⟨1890, 1931, 64275, 64500, ⟨1890, 41, 100, 33720, 295, 100000⟩⟩,
   ⟨1922, 1969, 64500, 64750, ⟨1922, 47, 100, 33397, 324, 100000⟩⟩,
   ⟨1960, 2008, 64750, 65000, ⟨1960, 48, 100, 33076, 322, 100000⟩⟩,
   ⟨1999, 2048, 65000, 65250, ⟨1999, 49, 100, 32758, 319, 100000⟩⟩,
   ⟨2039, 2089, 65250, 65500, ⟨2039, 50, 100, 32442, 317, 100000⟩⟩,
   ⟨2080, 2132, 65500, 65750, ⟨2080, 52, 100, 32129, 314, 100000⟩⟩,
   ⟨2123, 2176, 65750, 66000, ⟨2123, 53, 100, 31818, 312, 100000⟩⟩,
   ⟨2167, 2221, 66000, 66250, ⟨2167, 54, 100, 31509, 310, 100000⟩⟩]

theorem barsVc_chain : chainT 62310 barsVc 66250 = true := by decide +kernel
theorem barsVc_ok : barsV (eS2w 147) barsVc = true := by decide +kernel

end PyX.Kron
