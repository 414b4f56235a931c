import Verif.Lemmas.BarsHigh

/-!
# Enthalpies inside region 3
-/

namespace PyX.Kron

open Spec Spec.IF97 Spec.Sat

/-- `1.68 - (h/2500 + 1)` for the liquid, up to a factor -/
def eH1t : E := .sub (.mono [(525000000000000000000000000000000000000000000000, 0, 16)] [] 32 58) B1.qh.n

theorem h1_of_eH1t {p T : ℝ} (hv : Liquid p T) (h : 0 < eH1t.eval (7.1 - p / 16.53) (B1.z T)) : gamma1.h p T < 1700 := by
  have z0 := B1.z_pos hv
  simp only [eH1t, E.eval, qh1_n hv, evalN_cons', evalN_nil'] at h
  push_cast at h
  have h2 : 0 < 312500000000000000000000000000000000000000000000 * (B1.z T ^ 16 * (0.68 - gamma1.h p T / 2500)) := by
    refine h.trans_eq ?_
    ring
  have := pos_of_mul_pos_right (pos_of_mul_pos_right h2 (by norm_num)) (by positivity)
  linarith

/-- `4 h/2000 - 5` for the vapour, up to a factor -/
def eH2t : E := .sub (.mul (cst 4) B2.qh.n) (.mul (cst 5) (.mono den2 [] 24 63))

theorem h2_of_eH2t {p T : ℝ} (hv : Vapour p T) (h : 0 < eH2t.eval p (540 / T - 1 / 2)) : 2500 < gamma2.h p T := by
  simp only [eH2t, E.eval, eval_cst, qh2_n hv, evalN_nil'] at h
  push_cast at h
  have h2 : 0 < evalN den2 p (540 / T - 1 / 2) * (4 * (gamma2.h p T / 2000) - 5) := by
    refine h.trans_eq ?_
    ring
  have := pos_of_mul_pos_right h2 (den2_pos p (B2.y_pos hv)).le
  linarith

theorem barsLt_ok : barsL 62315 eH1t barsLw = true := by decide +kernel
def barsVm : List Bar :=
  [⟨1648, 1661, 62310, 62350, ⟨1648, 13, 100, 36607, 57, 100000⟩⟩,
   ⟨1652, 1666, 62350, 62400, ⟨1652, 14, 100, 36538, 70, 100000⟩⟩,
   ⟨1657, 1673, 62400, 62460, ⟨1657, 16, 100, 36455, 84, 100000⟩⟩,
   ⟨1664, 1681, 62460, 62540, ⟨1664, 17, 100, 36344, 112, 100000⟩⟩,
   ⟨1672, 1692, 62540, 62640, ⟨1672, 20, 100, 36206, 139, 100000⟩⟩,
   ⟨1683, 1704, 62640, 62750, ⟨1683, 21, 100, 36055, 152, 100000⟩⟩,
   ⟨1695, 1718, 62750, 62875, ⟨1695, 23, 100, 35884, 172, 100000⟩⟩,
   ⟨1709, 1733, 62875, 63000, ⟨1709, 24, 100, 35714, 171, 100000⟩⟩,
   ⟨1724, 1751, 63000, 63150, ⟨1724, 27, 100, 35510, 205, 100000⟩⟩,
   ⟨1742, 1769, 63150, 63300, ⟨1742, 27, 100, 35308, 203, 100000⟩⟩,
   ⟨1760, 1791, 63300, 63475, ⟨1760, 31, 100, 35072, 237, 100000⟩⟩,
   ⟨1782, 1813, 63475, 63650, ⟨1782, 31, 100, 34838, 235, 100000⟩⟩,
   ⟨1804, 1840, 63650, 63850, ⟨1804, 36, 100, 34573, 266, 100000⟩⟩,
   ⟨1831, 1867, 63850, 64050, ⟨1831, 36, 100, 34309, 265, 100000⟩⟩,
   ⟨1858, 1899, 64050, 64275, ⟨1858, 41, 100, 34014, 296, 100000⟩⟩,
   ⟨1890, 1931, 64275, 64500, ⟨1890, 41, 100, 33720, 295, 100000⟩⟩,
   ⟨1922, 1969, 64500, 64750, ⟨1922, 47, 100, 33397, 324, 100000⟩⟩,
   ⟨1960, 2008, 64750, 65000, ⟨1960, 48, 100, 33076, 322, 100000⟩⟩,
   ⟨1999, 2048, 65000, 65250, ⟨1999, 49, 100, 32758, 319, 100000⟩⟩,
   ⟨2039, 2089, 65250, 65500, ⟨2039, 50, 100, 32442, 317, 100000⟩⟩,
   ⟨2080, 2132, 65500, 65750, ⟨2080, 52, 100, 32129, 314, 100000⟩⟩,
   ⟨2123, 2176, 65750, 66000, ⟨2123, 53, 100, 31818, 312, 100000⟩⟩,
   ⟨2167, 2221, 66000, 66250, ⟨2167, 54, 100, 31509, 310, 100000⟩⟩,
   ⟨2212, 2268, 66250, 66500, ⟨2212, 56, 100, 31203, 307, 100000⟩⟩,
   ⟨2259, 2315, 66500, 66750, ⟨2259, 56, 100, 30898, 306, 100000⟩⟩,
   ⟨2306, 2364, 66750, 67000, ⟨2306, 58, 100, 30597, 302, 100000⟩⟩,
   ⟨2355, 2415, 67000, 67250, ⟨2355, 60, 100, 30297, 301, 100000⟩⟩,
   ⟨2406, 2466, 67250, 67500, ⟨2406, 60, 100, 30000, 298, 100000⟩⟩,
   ⟨2457, 2519, 67500, 67750, ⟨2457, 62, 100, 29704, 296, 100000⟩⟩,
   ⟨2510, 2573, 67750, 68000, ⟨2510, 63, 100, 29411, 294, 100000⟩⟩,
   ⟨2564, 2629, 68000, 68250, ⟨2564, 65, 100, 29120, 292, 100000⟩⟩,
   ⟨2620, 2685, 68250, 68500, ⟨2620, 65, 100, 28832, 289, 100000⟩⟩,
   ⟨2676, 2743, 68500, 68750, ⟨2676, 67, 100, 28545, 288, 100000⟩⟩,
   ⟨2734, 2803, 68750, 69000, ⟨2734, 69, 100, 28260, 286, 100000⟩⟩,
   ⟨2794, 2863, 69000, 69250, ⟨2794, 69, 100, 27978, 283, 100000⟩⟩,
   ⟨2854, 2925, 69250, 69500, ⟨2854, 71, 100, 27697, 282, 100000⟩⟩,
   ⟨2916, 2988, 69500, 69750, ⟨2916, 72, 100, 27419, 279, 100000⟩⟩,
   ⟨2979, 3052, 69750, 70000, ⟨2979, 73, 100, 27142, 278, 100000⟩⟩,
   ⟨3043, 3118, 70000, 70250, ⟨3043, 75, 100, 26868, 275, 100000⟩⟩,
   ⟨3109, 3185, 70250, 70500, ⟨3109, 76, 100, 26595, 274, 100000⟩⟩,
   ⟨3176, 3253, 70500, 70750, ⟨3176, 77, 100, 26325, 271, 100000⟩⟩,
   ⟨3244, 3322, 70750, 71000, ⟨3244, 78, 100, 26056, 270, 100000⟩⟩,
   ⟨3313, 3393, 71000, 71250, ⟨3313, 80, 100, 25789, 268, 100000⟩⟩,
   ⟨3384, 3465, 71250, 71500, ⟨3384, 81, 100, 25524, 266, 100000⟩⟩,
   ⟨3456, 3538, 71500, 71750, ⟨3456, 82, 100, 25261, 264, 100000⟩⟩,
   ⟨3529, 3613, 71750, 72000, ⟨3529, 84, 100, 25000, 262, 100000⟩⟩,
   ⟨3604, 3688, 72000, 72250, ⟨3604, 84, 100, 24740, 260, 100000⟩⟩,
   ⟨3679, 3766, 72250, 72500, ⟨3679, 87, 100, 24482, 259, 100000⟩⟩,
   ⟨3757, 3844, 72500, 72750, ⟨3757, 87, 100, 24226, 257, 100000⟩⟩,
   ⟨3835, 3923, 72750, 73000, ⟨3835, 88, 100, 23972, 255, 100000⟩⟩,
   ⟨3914, 4004, 73000, 73250, ⟨3914, 90, 100, 23720, 253, 100000⟩⟩,
   ⟨3995, 4086, 73250, 73500, ⟨3995, 91, 100, 23469, 252, 100000⟩⟩,
   ⟨4077, 4170, 73500, 73750, ⟨4077, 93, 100, 23220, 250, 100000⟩⟩,
   ⟨4161, 4255, 73750, 74000, ⟨4161, 94, 100, 22972, 249, 100000⟩⟩,
   ⟨4246, 4341, 74000, 74250, ⟨4246, 95, 100, 22727, 246, 100000⟩⟩,
   ⟨4332, 4428, 74250, 74500, ⟨4332, 96, 100, 22483, 245, 100000⟩⟩,
   ⟨4419, 4516, 74500, 74750, ⟨4419, 97, 100, 22240, 244, 100000⟩⟩,
   ⟨4507, 4606, 74750, 75000, ⟨4507, 99, 100, 22000, 241, 100000⟩⟩,
   ⟨4597, 4697, 75000, 75250, ⟨4597, 100, 100, 21760, 240, 100000⟩⟩,
   ⟨4688, 4790, 75250, 75500, ⟨4688, 102, 100, 21523, 238, 100000⟩⟩,
   ⟨4781, 4883, 75500, 75750, ⟨4781, 102, 100, 21287, 237, 100000⟩⟩,
   ⟨4874, 4978, 75750, 76000, ⟨4874, 104, 100, 21052, 236, 100000⟩⟩,
   ⟨4969, 5074, 76000, 76250, ⟨4969, 105, 100, 20819, 234, 100000⟩⟩,
   ⟨5065, 5172, 76250, 76500, ⟨5065, 107, 100, 20588, 232, 100000⟩⟩,
   ⟨5163, 5270, 76500, 76750, ⟨5163, 107, 100, 20358, 231, 100000⟩⟩,
   ⟨5261, 5370, 76750, 77000, ⟨5261, 109, 100, 20129, 230, 100000⟩⟩,
   ⟨5361, 5472, 77000, 77250, ⟨5361, 111, 100, 19902, 228, 100000⟩⟩,
   ⟨5463, 5574, 77250, 77500, ⟨5463, 111, 100, 19677, 226, 100000⟩⟩,
   ⟨5565, 5678, 77500, 77750, ⟨5565, 113, 100, 19453, 225, 100000⟩⟩,
   ⟨5669, 5783, 77750, 78000, ⟨5669, 114, 100, 19230, 224, 100000⟩⟩,
   ⟨5774, 5890, 78000, 78250, ⟨5774, 116, 100, 19009, 222, 100000⟩⟩,
   ⟨5881, 5997, 78250, 78500, ⟨5881, 116, 100, 18789, 221, 100000⟩⟩,
   ⟨5988, 6106, 78500, 78750, ⟨5988, 118, 100, 18571, 219, 100000⟩⟩,
   ⟨6097, 6216, 78750, 79000, ⟨6097, 119, 100, 18354, 218, 100000⟩⟩,
   ⟨6207, 6328, 79000, 79250, ⟨6207, 121, 100, 18138, 217, 100000⟩⟩,
   ⟨6319, 6441, 79250, 79500, ⟨6319, 122, 100, 17924, 215, 100000⟩⟩,
   ⟨6432, 6555, 79500, 79750, ⟨6432, 123, 100, 17711, 214, 100000⟩⟩,
   ⟨6546, 6670, 79750, 80000, ⟨6546, 124, 100, 17500, 212, 100000⟩⟩,
   ⟨6661, 6786, 80000, 80250, ⟨6661, 125, 100, 17289, 211, 100000⟩⟩,
   ⟨6777, 6904, 80250, 80500, ⟨6777, 127, 100, 17080, 210, 100000⟩⟩,
   ⟨6895, 7023, 80500, 80750, ⟨6895, 128, 100, 16873, 208, 100000⟩⟩,
   ⟨7014, 7144, 80750, 81000, ⟨7014, 130, 100, 16666, 208, 100000⟩⟩,
   ⟨7135, 7265, 81000, 81250, ⟨7135, 130, 100, 16461, 206, 100000⟩⟩,
   ⟨7256, 7388, 81250, 81500, ⟨7256, 132, 100, 16257, 205, 100000⟩⟩,
   ⟨7379, 7512, 81500, 81750, ⟨7379, 133, 100, 16055, 203, 100000⟩⟩,
   ⟨7503, 7638, 81750, 82000, ⟨7503, 135, 100, 15853, 203, 100000⟩⟩,
   ⟨7629, 7765, 82000, 82250, ⟨7629, 136, 100, 15653, 201, 100000⟩⟩,
   ⟨7756, 7893, 82250, 82500, ⟨7756, 137, 100, 15454, 200, 100000⟩⟩,
   ⟨7884, 8022, 82500, 82750, ⟨7884, 138, 100, 15256, 199, 100000⟩⟩,
   ⟨8013, 8153, 82750, 83000, ⟨8013, 140, 100, 15060, 197, 100000⟩⟩,
   ⟨8144, 8284, 83000, 83250, ⟨8144, 140, 100, 14864, 197, 100000⟩⟩,
   ⟨8275, 8418, 83250, 83500, ⟨8275, 143, 100, 14670, 195, 100000⟩⟩,
   ⟨8409, 8552, 83500, 83750, ⟨8409, 143, 100, 14477, 194, 100000⟩⟩,
   ⟨8543, 8688, 83750, 84000, ⟨8543, 145, 100, 14285, 193, 100000⟩⟩,
   ⟨8679, 8825, 84000, 84250, ⟨8679, 146, 100, 14094, 192, 100000⟩⟩,
   ⟨8816, 8963, 84250, 84500, ⟨8816, 147, 100, 13905, 190, 100000⟩⟩,
   ⟨8954, 9102, 84500, 84750, ⟨8954, 148, 100, 13716, 190, 100000⟩⟩,
   ⟨9093, 9243, 84750, 85000, ⟨9093, 150, 100, 13529, 188, 100000⟩⟩,
   ⟨9234, 9385, 85000, 85250, ⟨9234, 151, 100, 13343, 187, 100000⟩⟩,
   ⟨9376, 9528, 85250, 85500, ⟨9376, 152, 100, 13157, 187, 100000⟩⟩,
   ⟨9519, 9673, 85500, 85750, ⟨9519, 154, 100, 12973, 185, 100000⟩⟩,
   ⟨9664, 9819, 85750, 86000, ⟨9664, 155, 100, 12790, 184, 100000⟩⟩,
   ⟨9810, 10007, 86000, 86320, ⟨9810, 197, 100, 12557, 234, 100000⟩⟩]

theorem barsVm_chain : chainT 62310 barsVm 86320 = true := by decide +kernel
theorem barsVt_ok : barsV eH2t barsVm = true := by decide +kernel


end PyX.Kron
