import Verif.Lemmas.Back2

/-!
# The entropy of region 2 in the coordinates of the checker of the backward equations
-/

namespace PyX.Kron

/-- the exponents of the first variable multiplied -/
def xpow (k : ℕ) (l : List Mono) : List Mono := l.map fun t => (t.1, k * t.2.1, t.2.2)

theorem xpow_eval (k : ℕ) (l : List Mono) (x y : ℝ) : evalN (xpow k l) x y = evalN l (x ^ k) y := by
  simp only [evalN, xpow, List.map_map, Function.comp_def, pow_mul]

/-- a limit for `x`, as one for `xᵏ` -/
def limPow (k : ℕ) (l : Lim) : Lim := ⟨l.up, l.xn ^ k, l.xd ^ k, l.yn, l.yd⟩

theorem limPow_holds {k : ℕ} (hk : k ≠ 0) {ls : List Lim} {x y : ℝ} (hx : 0 ≤ x) (h : ∀ l ∈ ls.map (limPow k), l.Holds (x ^ k) y) :
    ∀ l ∈ ls, l.Holds x y := by
  intro l hl
  obtain ⟨h1, h2⟩ := h _ (List.mem_map_of_mem hl)
  have key : x ^ k * ((l.xd ^ k : ℕ) : ℝ) ≤ ((l.xn ^ k : ℕ) : ℝ) → x * l.xd ≤ l.xn := by
    intro h
    push_cast at h
    rw [← mul_pow] at h
    exact (pow_le_pow_iff_left₀ (by positivity) (by positivity) hk).1 h
  exact ⟨fun u v => key (h1 u v), fun u v => key (h2 u v)⟩

namespace B2

open Spec Spec.IF97 Spec.Sat

def Hp4 : List Mono :=
  [(438706672844350000000000000000000000, 12, 0), (25581435704570000000000000000000000, 16, 1),
    (1446761181555210000000000000000000000, 16, 2), (16045453436362700000000000000000000000, 20, 6),
    (90049690883672000000000000000000, 32, 7), (257526266427144000000000000000000000, 36, 12),
    (416278608406960000000000, 40, 3), (5346515939704500000000000000000000000000000, 64, 49), (17837169071084200000,
    80, 19), (10720260906681200000000000000000, 80, 34), (200482822351322100000000000000000000000, 88, 52),
    (1900277875471586, 96, 25), (2216588614031120000000000000, 96, 39)]

def Hn4 : List Mono :=
  [(17834862292358000000000000000000000000000, 4, 0), (91992027392730000000000000000000000000000, 4, 1),
    (172743777250296000000000000000000000000000, 4, 2), (301951672367580000000000000000000000000000, 4, 5),
    (33032641670203000000000000000000000000, 8, 0), (378979750326300000000000000000000000000, 8, 1),
    (15757110897342000000000000000000000000000, 8, 3), (306581069554011000000000000000000000000000, 8, 6),
    (960283724907132000000000000000000000000, 8, 35), (96833031715710000000000000000000000000, 12, 2),
    (9020354725288800000000000000000000000000, 12, 5), (1423388874692715000000000000000000000000000, 12, 34),
    (788473095593670000000000000000000, 16, 0), (50144299353183000000000000000000, 24, 2),
    (33874355714168000000000000000000000000000, 24, 15), (836350967693640000000000000000000000000000000, 24, 34),
    (13883989789011100000000000000000000000, 28, 10), (973671060893475000000000000000000000000000, 28, 24),
    (296320827232792800000000000000000000000000000, 32, 35), (1023474709592900000000000000000, 40, 9),
    (14025451131315400000000000000000000, 40, 13), (2345604350762565000000000000000000, 64, 28),
    (19187482827277470000000000000000000000000000, 72, 56), (201611844951398400000000000000000000000, 80, 47),
    (1240176623398419000, 84, 20), (49797574845255900000000000000, 92, 38), (54734430199901800000000000000000000000,
    96, 57)]

def Fp4 : List Mono :=
  [(20481737692309000000000000000000000, 12, 0), (438706672844350000000000000000000000, 12, 1),
    (12790717852285000000000000000000000, 16, 2), (482253727185070000000000000000000000, 16, 3),
    (2292207633766100000000000000000000000, 20, 7), (11256211360459000000000000000000, 32, 8),
    (19809712802088000000000000000000000, 36, 13), (104069652101740000000000, 40, 4),
    (106930318794090000000000000000000000000000, 64, 50), (891858453554210000, 80, 20),
    (306293168762320000000000000000, 80, 35), (3782694761345700000000000000000000000, 88, 53), (73087610595061, 96,
    26), (55414715350778000000000000, 96, 40)]

def Fn4 : List Mono :=
  [(1773174247321300000000000000000000000000, 4, 0), (17834862292358000000000000000000000000000, 4, 1),
    (45996013696365000000000000000000000000000, 4, 2), (57581259083432000000000000000000000000000, 4, 3),
    (50325278727930000000000000000000000000000, 4, 6), (33032641670203000000000000000000000000, 8, 1),
    (189489875163150000000000000000000000000, 8, 2), (3939277724335500000000000000000000000000, 8, 4),
    (43797295650573000000000000000000000000000, 8, 7), (26674547914087000000000000000000000000, 8, 36),
    (32277677238570000000000000000000000000, 12, 3), (1503392454214800000000000000000000000000, 12, 6),
    (40668253562649000000000000000000000000000, 12, 35), (788473095593670000000000000000000, 16, 1),
    (16714766451061000000000000000000, 24, 3), (2117147232135500000000000000000000000000, 24, 16),
    (23895741934104000000000000000000000000000000, 24, 35), (5905956432427000000000000, 28, 0),
    (1262180889910100000000000000000000000, 28, 11), (38946842435739000000000000000000000000000, 28, 25),
    (8231134089799800000000000000000000000000000, 32, 36), (102347470959290000000000000000, 40, 10),
    (1001817937951100000000000000000000, 40, 14), (80882908646985000000000000000000, 64, 29),
    (336622505741710000000000000000000000000000, 72, 57), (4200246769820800000000000000000000000, 80, 48),
    (59056029685639000, 84, 21), (1276860893468100000000000000, 92, 39), (943697072412100000000000000000000000, 96,
    58)]

theorem Hp4_eq : Hp4 = xpow 4 Hp := by decide +kernel
theorem Hn4_eq : Hn4 = xpow 4 Hn := by decide +kernel
theorem Fp4_eq : Fp4 = xpow 4 Fp := by decide +kernel
theorem Fn4_eq : Fn4 = xpow 4 Fn := by decide +kernel

/-- `eS` at `x⁴` -/
def eS4 : E := .add (.mono Jp Jn 96 63) (.mul (.mono l5 [] 0 5)
  (.sub (.mul (.mono [(1, 0, 0), (2, 0, 1)] [] 0 1) (.mono Hp4 Hn4 96 57)) (.mul (cst 2) (.mono Fp4 Fn4 96 58))))

theorem eS4_eval (x y : ℝ) : eS4.eval x y = eS.eval (x ^ 4) y := by
  have j1 : Jp = xpow 4 Jp := by decide +kernel
  have j2 : Jn = xpow 4 Jn := by decide +kernel
  have j3 : l5 = xpow 4 l5 := by decide +kernel
  have e1 : evalN Jp x y = evalN Jp (x ^ 4) y := by rw [← xpow_eval, ← j1]
  have e2 : evalN Jn x y = evalN Jn (x ^ 4) y := by rw [← xpow_eval, ← j2]
  have e3 : evalN l5 x y = evalN l5 (x ^ 4) y := by rw [← xpow_eval, ← j3]
  simp only [eS4, eS, E.eval, eval_cst, Hp4_eq, Hn4_eq, Fp4_eq, Fn4_eq, xpow_eval, e1, e2, e3, evalN_cons', evalN_nil', pow_zero, mul_one]

variable {p T : ℝ}

/-- `gamma2.s p T / 2 - 2`, without the logarithm, at `x⁴ = p` -/
def qsa : Quot := ⟨.sub (.mul (cst 230763) eS4) (.mono [(4000000000000000000000000000000000000000000000000, 0, 0), (40000000000000000000000000000000000000000000000000, 0, 1), (160000000000000000000000000000000000000000000000000, 0, 2), (320000000000000000000000000000000000000000000000000, 0, 3), (320000000000000000000000000000000000000000000000000, 0, 4), (128000000000000000000000000000000000000000000000000, 0, 5)] [] 96 63), [(2000000000000000000000000000000000000000000000000, 0, 0), (20000000000000000000000000000000000000000000000000, 0, 1), (80000000000000000000000000000000000000000000000000, 0, 2), (160000000000000000000000000000000000000000000000000, 0, 3), (160000000000000000000000000000000000000000000000000, 0, 4), (64000000000000000000000000000000000000000000000000, 0, 5)], 0, 5⟩

theorem qsa_eval (hv : Vapour p T) {x : ℝ} (hx : x ^ 4 = p) : qsa.eval x (540 / T - 1 / 2) = gamma2.s p T / 2 - 2 + R / 2 * Real.log p := by
  have y0 := y_pos hv
  have hl : (0 : ℝ) < evalN [(2000000000000000000000000000000000000000000000000, 0, 0), (20000000000000000000000000000000000000000000000000, 0, 1), (80000000000000000000000000000000000000000000000000, 0, 2), (160000000000000000000000000000000000000000000000000, 0, 3), (160000000000000000000000000000000000000000000000000, 0, 4), (64000000000000000000000000000000000000000000000000, 0, 5)] x (540 / T - 1 / 2) := by
    simp only [evalN_cons', evalN_nil']; positivity
  have r : R = 461526 / 1000000 := by norm_num [R]
  simp only [qsa, Quot.eval, E.eval, eval_cst]
  rw [eS4_eval, hx, eS_eval hv, div_eq_iff hl.ne', r]
  simp only [evalN_cons', evalN_nil']
  push_cast
  ring

/-- `10 - gamma2.s p T / 0.7853`, without the logarithm -/
def qsb : Quot := ⟨.sub (.mono [(7853000000000000000000000000000000000000000000000, 0, 0), (78530000000000000000000000000000000000000000000000, 0, 1), (314120000000000000000000000000000000000000000000000, 0, 2), (628240000000000000000000000000000000000000000000000, 0, 3), (628240000000000000000000000000000000000000000000000, 0, 4), (251296000000000000000000000000000000000000000000000, 0, 5)] [] 24 63) (.mul (cst 230763) eS), [(785300000000000000000000000000000000000000000000, 0, 0), (7853000000000000000000000000000000000000000000000, 0, 1), (31412000000000000000000000000000000000000000000000, 0, 2), (62824000000000000000000000000000000000000000000000, 0, 3), (62824000000000000000000000000000000000000000000000, 0, 4), (25129600000000000000000000000000000000000000000000, 0, 5)], 0, 5⟩

theorem qsb_eval (hv : Vapour p T) : qsb.eval p (540 / T - 1 / 2) = 10 - gamma2.s p T / 0.7853 - R / 0.7853 * Real.log p := by
  have y0 := y_pos hv
  have hl : (0 : ℝ) < evalN [(785300000000000000000000000000000000000000000000, 0, 0), (7853000000000000000000000000000000000000000000000, 0, 1), (31412000000000000000000000000000000000000000000000, 0, 2), (62824000000000000000000000000000000000000000000000, 0, 3), (62824000000000000000000000000000000000000000000000, 0, 4), (25129600000000000000000000000000000000000000000000, 0, 5)] p (540 / T - 1 / 2) := by
    simp only [evalN_cons', evalN_nil']; positivity
  have r : R = 461526 / 1000000 := by norm_num [R]
  simp only [qsb, Quot.eval, E.eval, eval_cst]
  rw [eS_eval hv, div_eq_iff hl.ne', r]
  simp only [evalN_cons', evalN_nil']
  push_cast
  ring

/-- `gamma2.s p T / 2.9251`, without the logarithm -/
def qsc : Quot := ⟨.mul (cst 230763) eS, [(2925100000000000000000000000000000000000000000000, 0, 0), (29251000000000000000000000000000000000000000000000, 0, 1), (117004000000000000000000000000000000000000000000000, 0, 2), (234008000000000000000000000000000000000000000000000, 0, 3), (234008000000000000000000000000000000000000000000000, 0, 4), (93603200000000000000000000000000000000000000000000, 0, 5)], 0, 5⟩

theorem qsc_eval (hv : Vapour p T) : qsc.eval p (540 / T - 1 / 2) = gamma2.s p T / 2.9251 + R / 2.9251 * Real.log p := by
  have y0 := y_pos hv
  have hl : (0 : ℝ) < evalN [(2925100000000000000000000000000000000000000000000, 0, 0), (29251000000000000000000000000000000000000000000000, 0, 1), (117004000000000000000000000000000000000000000000000, 0, 2), (234008000000000000000000000000000000000000000000000, 0, 3), (234008000000000000000000000000000000000000000000000, 0, 4), (93603200000000000000000000000000000000000000000000, 0, 5)] p (540 / T - 1 / 2) := by
    simp only [evalN_cons', evalN_nil']; positivity
  have r : R = 461526 / 1000000 := by norm_num [R]
  simp only [qsc, Quot.eval, E.eval, eval_cst]
  rw [eS_eval hv, div_eq_iff hl.ne', r]
  simp only [evalN_cons', evalN_nil']
  push_cast
  ring

end B2

end PyX.Kron
