import Verif.Props.HsLiquid

/-!
# The equation of the saturated vapour by entropy is bounded
-/

namespace PyX

open Classical Py Num _root_.Spec.IF97

/-- a term on the box [x0, x1] × [y0, y1] of the positive quadrant is at most this -/
def termUp (t : Term) (x0 x1 y0 y1 : ℚ) : ℚ :=
  if 0 ≤ t.n then t.n * (x1 ^ t.I.toNat * y1 ^ t.J.toNat) else t.n * (x0 ^ t.I.toNat * y0 ^ t.J.toNat)

theorem termUp_le {t : Term} {x0 x1 y0 y1 : ℚ} {x y : ℝ} (hI : 0 ≤ t.I) (hJ : 0 ≤ t.J) (a0 : 0 ≤ x0) (b0 : 0 ≤ y0)
    (hx0 : (x0 : ℝ) ≤ x) (hx1 : x ≤ x1) (hy0 : (y0 : ℝ) ≤ y) (hy1 : y ≤ y1) :
    (t.n : ℝ) * x ^ t.I * y ^ t.J ≤ (termUp t x0 x1 y0 y1 : ℚ) := by
  have c0 : (0 : ℝ) ≤ x0 := by exact_mod_cast a0
  have d0 : (0 : ℝ) ≤ y0 := by exact_mod_cast b0
  have eI : x ^ t.I = x ^ t.I.toNat := by rw [← zpow_natCast, Int.toNat_of_nonneg hI]
  have eJ : y ^ t.J = y ^ t.J.toNat := by rw [← zpow_natCast, Int.toNat_of_nonneg hJ]
  rw [eI, eJ, mul_assoc, termUp]
  have hx : 0 ≤ x := c0.trans hx0
  have hy : 0 ≤ y := d0.trans hy0
  split_ifs with h
  · push_cast
    refine mul_le_mul_of_nonneg_left ?_ (by exact_mod_cast h)
    exact mul_le_mul (pow_le_pow_left₀ hx hx1 _) (pow_le_pow_left₀ hy hy1 _) (pow_nonneg hy _) (pow_nonneg (hx.trans hx1) _)
  · push_cast
    refine mul_le_mul_of_nonpos_left ?_ (by exact_mod_cast (not_le.1 h).le)
    exact mul_le_mul (pow_le_pow_left₀ c0 hx0 _) (pow_le_pow_left₀ d0 hy0 _) (pow_nonneg d0 _) (pow_nonneg hx _)

theorem poly_le_up {l : List Term} {x0 x1 y0 y1 : ℚ} {x y : ℝ} (hl : ∀ t ∈ l, 0 ≤ t.I ∧ 0 ≤ t.J) (a0 : 0 ≤ x0) (b0 : 0 ≤ y0)
    (hx0 : (x0 : ℝ) ≤ x) (hx1 : x ≤ x1) (hy0 : (y0 : ℝ) ≤ y) (hy1 : y ≤ y1) :
    poly l x y ≤ ((l.map fun t => termUp t x0 x1 y0 y1).sum : ℚ) := by
  rw [poly]
  induction l with
  | nil => simp
  | cons t l ih =>
    simp only [List.map_cons, List.sum_cons]
    push_cast
    have h := hl t (by simp)
    exact add_le_add (termUp_le h.1 h.2 a0 b0 hx0 hx1 hy0 hy1) (by exact_mod_cast ih fun t ht => hl t (by simp [ht]))

def h4s4 : List Term :=
  (Region4.h4_s.ni_4.zip (Region4.h4_s.Ii_4.zip Region4.h4_s.Ji_4)).map fun a => ⟨a.2.1, a.2.2, a.1⟩

theorem h4s4_nonneg : ∀ t ∈ h4s4, 0 ≤ t.I ∧ 0 ≤ t.J := by decide

/-- entropies from `a` to `b` with bounds for 5.21 / s - 0.513 and s / 9.2 - 0.524 -/
def vapourPieces : List (ℚ × ℚ × ℚ × ℚ × ℚ × ℚ) :=
  [(67/10, 673/100, 13057/50000, 13231/50000, 10213/50000, 20753/100000),
   (673/100, 1353/200, 12857/50000, 5223/20000, 1297/6250, 21133/100000),
   (1353/200, 34/5, 25317/100000, 5143/20000, 5283/25000, 10757/50000),
   (34/5, 171/25, 24869/100000, 12659/50000, 21513/100000, 5487/25000),
   (171/25, 1377/200, 24371/100000, 2487/10000, 21947/100000, 22437/100000),
   (1377/200, 1387/200, 11913/50000, 6093/25000, 5609/25000, 22981/100000),
   (1387/200, 7, 2891/12500, 23827/100000, 1149/5000, 23687/100000),
   (7, 707/100, 22391/100000, 23129/100000, 11843/50000, 764/3125),
   (707/100, 717/100, 21363/100000, 2799/12500, 24447/100000, 5107/20000),
   (717/100, 731/100, 4993/25000, 5341/25000, 12767/50000, 27057/100000),
   (731/100, 753/100, 17889/100000, 19973/100000, 1691/6250, 3681/12500),
   (753/100, 79/10, 14649/100000, 1789/10000, 29447/100000, 3347/10000),
   (79/10, 44/5, 247/3125, 293/2000, 33469/100000, 43253/100000),
   (44/5, 229/25, 5577/100000, 1581/20000, 10813/25000, 23583/50000)]

def pieceOk : ℚ × ℚ × ℚ × ℚ × ℚ × ℚ → Bool
  | (a, b, x0, x1, y0, y1) =>
    decide (0 < a) && decide (0 ≤ x0) && decide (0 ≤ y0) && decide (x0 + 0.513 ≤ 5.21 / b) && decide (5.21 / a ≤ x1 + 0.513) &&
    decide (y0 + 0.524 ≤ a / 9.2) && decide (b / 9.2 ≤ y1 + 0.524) && decide ((h4s4.map fun t => termUp t x0 x1 y0 y1).sum ≤ 0.35)

theorem pieces_ok : vapourPieces.all pieceOk = true := by decide +kernel

theorem piece_sound {a b x0 x1 y0 y1 : ℚ} (h : pieceOk (a, b, x0, x1, y0, y1) = true) {s : ℝ} (h0 : (a : ℝ) ≤ s) (h1 : s ≤ b) :
    poly h4s4 (5.21 / s - 0.513) (s / 9.2 - 0.524) ≤ 0.35 := by
  simp only [pieceOk, Bool.and_eq_true, decide_eq_true_eq] at h
  obtain ⟨⟨⟨⟨⟨⟨⟨g1, g2⟩, g3⟩, g4⟩, g5⟩, g6⟩, g7⟩, g8⟩ := h
  have g1' : (0 : ℝ) < a := by exact_mod_cast g1
  have g4' : ((x0 + 0.513 : ℚ) : ℝ) ≤ ((5.21 / b : ℚ) : ℝ) := by exact_mod_cast g4
  have g5' : ((5.21 / a : ℚ) : ℝ) ≤ ((x1 + 0.513 : ℚ) : ℝ) := by exact_mod_cast g5
  have g6' : ((y0 + 0.524 : ℚ) : ℝ) ≤ ((a / 9.2 : ℚ) : ℝ) := by exact_mod_cast g6
  have g7' : ((b / 9.2 : ℚ) : ℝ) ≤ ((y1 + 0.524 : ℚ) : ℝ) := by exact_mod_cast g7
  have g8' : (((h4s4.map fun t => termUp t x0 x1 y0 y1).sum : ℚ) : ℝ) ≤ ((0.35 : ℚ) : ℝ) := by exact_mod_cast g8
  push_cast at g4' g5' g6' g7'
  have hs : 0 < s := g1'.trans_le h0
  have i1 : 5.21 / (b : ℝ) ≤ 5.21 / s := div_le_div_of_nonneg_left (by norm_num) hs h1
  have i2 : 5.21 / s ≤ 5.21 / (a : ℝ) := div_le_div_of_nonneg_left (by norm_num) g1' h0
  have i3 : (a : ℝ) / 9.2 ≤ s / 9.2 := div_le_div_of_nonneg_right h0 (by norm_num)
  have i4 : s / 9.2 ≤ (b : ℝ) / 9.2 := div_le_div_of_nonneg_right h1 (by norm_num)
  exact (poly_le_up h4s4_nonneg g2 g3 (by linarith) (by linarith) (by linarith) (by linarith)).trans (g8'.trans (by norm_num))

def chainQ (a : ℚ) : List (ℚ × ℚ × ℚ × ℚ × ℚ × ℚ) → ℚ → Bool
  | [], b => decide (a = b)
  | q :: l, b => decide (a = q.1) && chainQ q.2.1 l b

theorem chainQ_cover {l : List (ℚ × ℚ × ℚ × ℚ × ℚ × ℚ)} {a b : ℚ} (h : chainQ a l b = true) {s : ℝ} (h0 : (a : ℝ) ≤ s) (h1 : s < b) :
    ∃ q ∈ l, (q.1 : ℝ) ≤ s ∧ s ≤ q.2.1 := by
  induction l generalizing a with
  | nil =>
    simp only [chainQ, decide_eq_true_eq] at h
    subst h
    exact absurd h0 (not_le.2 h1)
  | cons q l ih =>
    simp only [chainQ, Bool.and_eq_true, decide_eq_true_eq] at h
    rcases le_total s q.2.1 with c | c
    · exact ⟨q, by simp, by rw [← h.1]; exact h0, c⟩
    · obtain ⟨r, hr, k⟩ := ih h.2 c
      exact ⟨r, by simp [hr], k⟩

theorem pieces_chain : chainQ 6.7 vapourPieces 9.16 = true := by decide +kernel

theorem eta_le {s : ℝ} (h0 : 6.7 ≤ s) (h1 : s < 9.16) : poly h4s4 (5.21 / s - 0.513) (s / 9.2 - 0.524) ≤ 0.35 := by
  obtain ⟨⟨a, b, x0, x1, y0, y1⟩, hq, c, d⟩ := chainQ_cover pieces_chain (s := s) (by push_cast; exact h0) (by push_cast; exact h1)
  exact piece_sound (List.all_eq_true.1 pieces_ok _ hq) c d

/-- `h4_s` from 6.7 to 9.155759395 kJ/(kg K) -/
theorem h4_s_4 {s : ℝ} (h1 : 6.7 ≤ s) (h2 : s < 9.155759395) :
    Region4.h4_s .ideal (.fin s) = pure (.fin (Real.exp (poly h4s4 (5.21 / s - 0.513) (s / 9.2 - 0.524)) * 2800)) := by
  have iI : Region4.h4_s.Ii_4 = h4s4.map Term.I := rfl
  have iJ : Region4.h4_s.Ji_4 = h4s4.map Term.J := rfl
  have iN : Region4.h4_s.ni_4 = h4s4.map Term.n := rfl
  have e1 : FP.ideal.lit 3.77828134 = .fin 3.77828134 := by rw [lit_ideal]; norm_num
  have e2 : FP.ideal.lit 4.41202148223476 = .fin 4.41202148223476 := by rw [lit_ideal]; norm_num
  have e3 : FP.ideal.lit 5.85 = .fin 5.85 := by rw [lit_ideal]; norm_num
  have e4 : FP.ideal.lit 5.21 = .fin 5.21 := by rw [lit_ideal]; norm_num
  have e5 : FP.ideal.lit 9.2 = .fin 9.2 := by rw [lit_ideal]; norm_num
  have e6 : FP.ideal.lit 0.513 = .fin 0.513 := by rw [lit_ideal]; norm_num
  have e7 : FP.ideal.lit 0.524 = .fin 0.524 := by rw [lit_ideal]; norm_num
  have e8 : FP.ideal.lit 9.155759395 = .fin 9.155759395 := by rw [lit_ideal]; norm_num
  have hs : s / 5.21 ≠ 0 := by positivity
  unfold Region4.h4_s
  rw [iI, iJ, iN]
  simp only [e1, e2, e3, e4, e5, e6, e7, e8, gt_num, fin_lt, fin_le]
  rw [if_neg (by rintro ⟨-, h⟩; linarith), if_neg (by rintro ⟨-, h⟩; linarith), if_neg (by rintro ⟨-, h⟩; linarith),
    if_pos ⟨by linarith, h2⟩]
  simp only [div_ideal (show (5.21 : ℝ) ≠ 0 by norm_num), div_ideal (show (9.2 : ℝ) ≠ 0 by norm_num), pure_bind, sub_ideal, ofInt_eq,
    div_ideal hs]
  have ei : ((1 : ℤ) : ℝ) / (s / 5.21) = 5.21 / s := by
    rw [Int.cast_one, one_div_div]
  rw [Int.cast_zero, loop1 (N := 30) (a := 0) (b := 30) h4s4 rfl rfl
    (fun t => (t.n : ℝ) * (5.21 / s - 0.513) ^ t.I * (s / 9.2 - 0.524) ^ t.J) 0 _ fun i hi a => ?_]
  · simp only [pure_bind, mul_ideal, poly, zero_add, exp_ideal]
    norm_cast
  · have hn := h4s4_nonneg _ (List.getElem_mem hi)
    simp only [Nat.add_zero, idx_map _ hi, pure_bind, lit_ideal, ei, pow_ideal_int (Or.inr hn.1),
      pow_ideal_int (Or.inr hn.2), mul_ideal, add_ideal]

theorem h4_s_4_lt {s : ℝ} (h1 : 6.7 ≤ s) (h2 : s < 9.155759395) :
    Real.exp (poly h4s4 (5.21 / s - 0.513) (s / 9.2 - 0.524)) * 2800 < 4162 := by
  have h := Real.exp_le_exp.2 (eta_le h1 (by linarith))
  have k : Real.exp 0.35 ^ 20 = Real.exp 1 ^ 7 := by
    rw [← Real.exp_nat_mul, ← Real.exp_nat_mul]
    norm_num
  have e := Real.exp_one_lt_d9
  have m : Real.exp 0.35 < 1.48 := by
    refine lt_of_pow_lt_pow_left₀ 20 (by norm_num) ?_
    rw [k]
    exact (pow_lt_pow_left₀ e (Real.exp_pos 1).le (by norm_num)).trans (by norm_num)
  linarith

end PyX
