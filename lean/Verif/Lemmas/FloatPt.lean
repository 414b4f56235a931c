import Verif.Props.FloatTsat
import Verif.Props.Potential
import Verif.Lemmas.Rel

/-!
# The rounding error of the equations of regions 1 and 5
-/

namespace PyX

open Classical Py Num Spec Spec.PT Spec.IF97

variable {F : FP}

private theorem i1386 : Num.ofInt 1386 = .fin 1386 := by rw [ofInt_eq]; norm_num
private theorem i1000 : Num.ofInt 1000 = .fin 1000 := by rw [ofInt_eq]; norm_num

/-! ## Region 1 -/

private theorem facts1 : ∀ t ∈ region1, 0 ≤ t.I ∧ t.I ≤ 32 ∧ -41 ≤ t.J ∧ t.J ≤ 17 ∧ (1 : ℚ) / 10 ^ 26 ≤ |t.n| ∧ |t.n| ≤ 10 := by
  unfold region1
  simp only [List.forall_mem_cons]
  norm_num [abs_of_pos, abs_of_neg]

/-- a bound on the derivative of a term on the rectangle around region 1 -/
private noncomputable def b1 (k l : ℕ) (t : Term) : ℝ :=
  |(t.n : ℝ)| * (|ff t.I k| * (if t.I < k then 1 else 7.1 ^ (t.I - k))) * (|ff t.J l| * (if t.J < l then 1 else 3.86 ^ (t.J - l)))

private theorem zpow_bound {x X : ℝ} (h1 : 1 ≤ x) (h2 : x ≤ X) (m n : ℤ) : x ^ (m - n) ≤ if m < n then 1 else X ^ (m - n) := by
  split_ifs with h
  · exact zpow_le_one_of_nonpos₀ h1 (by omega)
  · exact zpow_le_zpow_left₀ (by omega) (by linarith) h2

private theorem le_b1 {x y : ℝ} (x1 : 1 ≤ x) (x2 : x ≤ 7.1) (y1 : 1 ≤ y) (y2 : y ≤ 3.86) (k l : ℕ) (t : Term) :
    |Term.d t k l x y| ≤ b1 k l t := by
  have hx := zpow_bound x1 x2 t.I k
  have hy := zpow_bound y1 y2 t.J l
  have px : 0 < x ^ (t.I - k) := zpow_pos (by linarith) _
  have py : 0 < y ^ (t.J - l) := zpow_pos (by linarith) _
  rw [Term.d, b1, abs_mul, abs_mul, abs_mul, abs_mul, abs_of_pos px, abs_of_pos py]
  gcongr

private theorem sum_h1 : (region1.map (b1 0 1)).sum ≤ 45600 := by
  norm_num [region1, b1, ff, abs_of_pos, abs_of_neg]

private theorem sum_v1 : (region1.map (b1 1 0)).sum ≤ 4960 := by
  norm_num [region1, b1, ff, abs_of_pos, abs_of_neg]

private theorem sum_g1 : (region1.map (b1 0 0)).sum ≤ 1200 := by
  norm_num [region1, b1, ff, abs_of_pos, abs_of_neg]

/-- a term of the region 1 equation, with the factors in the order of the code -/
private theorem factors1 (hF : F.Digits15) {a b : Num} {x y : ℝ} (ha : Rel a x 1e-13) (hb : Rel b y 2e-13) (x1 : 1 ≤ x) (x2 : x ≤ 7.1)
    (y1 : 1 ≤ y) (y2 : y ≤ 3.86) {t : Term} (ht : t ∈ region1) (k l : ℤ) (hk : 0 ≤ k ∧ k ≤ 1) (hl : 0 ≤ l ∧ l ≤ 1) :
    ∃ A B, F.pow a (Num.ofInt (t.I - k)) = pure A ∧ F.pow b (Num.ofInt (t.J - l)) = pure B ∧ Rel (F.lit t.n) t.n 1e-15 ∧
      Rel A (x ^ (t.I - k)) 4e-12 ∧ Rel B (y ^ (t.J - l)) 1.1e-11 ∧ Rng t.n 26 ∧ Rng (x ^ (t.I - k)) 33 ∧ Rng (y ^ (t.J - l)) 42 ∧
      Rng t.I 2 ∧ Rng t.J 2 := by
  obtain ⟨h1, h2, h3, h4, h5, h6⟩ := facts1 t ht
  have x0 : 0 < x := by linarith
  have y0 : 0 < y := by linarith
  have rx : Rng (x ^ (t.I - k)) 33 :=
    (Rng.zpow (k := 1) (.inr (by rw [abs_of_pos x0]; norm_num at *; constructor <;> linarith)) x0.ne' _).mono (by omega)
  have ry : Rng (y ^ (t.J - l)) 42 :=
    (Rng.zpow (k := 1) (.inr (by rw [abs_of_pos y0]; norm_num at *; constructor <;> linarith)) y0.ne' _).mono (by omega)
  obtain ⟨A, eA, hA⟩ := ha.zpow hF x0 (t.I - k) 32 (η' := 4e-12) (by rw [← Int.cast_abs]; exact_mod_cast (by rw [abs_le]; omega)) rx (by norm_num)
    (by norm_num) (by norm_num)
  obtain ⟨B, eB, hB⟩ := hb.zpow hF y0 (t.J - l) 42 (η' := 1.1e-11) (by rw [← Int.cast_abs]; exact_mod_cast (by rw [abs_le]; omega)) ry (by norm_num)
    (by norm_num) (by norm_num)
  have n1 : (1 : ℝ) / 10 ^ 26 ≤ |(t.n : ℝ)| := by
    have : ((1 / 10 ^ 26 : ℚ) : ℝ) ≤ ((|t.n| : ℚ) : ℝ) := Rat.cast_le.2 h5
    simpa using this
  have n2 : |(t.n : ℝ)| ≤ 10 := by
    have : ((|t.n| : ℚ) : ℝ) ≤ ((10 : ℚ) : ℝ) := Rat.cast_le.2 h6
    simpa using this
  have iI : |(t.I : ℝ)| ≤ 10 ^ 2 := by rw [← Int.cast_abs]; exact_mod_cast (by rw [abs_le]; omega)
  have iJ : |(t.J : ℝ)| ≤ 10 ^ 2 := by rw [← Int.cast_abs]; exact_mod_cast (by rw [abs_le]; omega)
  exact ⟨A, B, eA, eB, .lit hF _ rfl (le_trans (by norm_num) n1) (n2.trans (by norm_num)), hA, hB,
    .inr ⟨by simpa using n1, n2.trans (by norm_num)⟩, rx, ry, .int _ iI, .int _ iJ⟩

/-- the reduced pressure and temperature of region 1 -/
private theorem bases1 (hF : F.Digits15) {a b : Num} {p T : ℝ} (ha : Approx a p (1e-14 * p)) (hb : Approx b T 1e-11)
    (p0 : 0.0006 ≤ p) (p1 : p ≤ 100) (T0 : 273.15 ≤ T) (T1 : T ≤ 623.15) :
    ∃ P τ, F.div a (F.lit 16.53) = pure P ∧ F.div (Num.ofInt 1386) b = pure τ ∧ Rel P (p / 16.53) 1.25e-14 ∧ Approx τ (1386 / T) 1.92e-13 ∧
      Rel (F.sub (F.lit 7.1) P) (7.1 - p / 16.53) 1e-13 ∧ Rel (F.sub τ (F.lit 1.222)) (1386 / T - 1.222) 2e-13 ∧
      1 ≤ 7.1 - p / 16.53 ∧ 7.1 - p / 16.53 ≤ 7.1 ∧ 1 ≤ 1386 / T - 1.222 ∧ 1386 / T - 1.222 ≤ 3.86 := by
  have T0' : 0 < T := by norm_num at *; linarith
  have P0 : 0 < p := by norm_num at *; linarith
  have q0 : 0 ≤ p / 16.53 := by positivity
  have q1 : p / 16.53 ≤ 6.05 := by rw [div_le_iff₀ (by norm_num)]; norm_num at *; linarith
  have t0 : 2.2241 ≤ 1386 / T := by rw [le_div_iff₀ T0']; norm_num at *; linarith
  have t1 : 1386 / T ≤ 5.075 := by rw [div_le_iff₀ T0']; norm_num at *; linarith
  have L16 : Approx (F.lit 16.53) 16.53 1.7e-14 := .lit hF _ (by norm_num) (M := 16.6) (by norm_num [abs_le]) (by norm_num)
  have L7 : Approx (F.lit 7.1) 7.1 7.2e-15 := .lit hF _ (by norm_num) (M := 7.11) (by norm_num [abs_le]) (by norm_num)
  have L1 : Approx (F.lit 1.222) 1.222 1.3e-15 := .lit hF _ (by norm_num) (M := 1.23) (by norm_num [abs_le]) (by norm_num)
  obtain ⟨P, eP, hP⟩ := ha.div hF L16 (m := 16.53) (M := p / 16.53) (δ' := 1.25e-14 * (p / 16.53)) (by norm_num [abs_of_pos]) (by rw [abs_of_nonneg q0])
    (by
      have : p / 16.53 * 1.7e-14 = p * (1.7e-14 / 16.53) := by ring
      rw [this, show (1e-14 * p + p * (1.7e-14 / 16.53)) / (16.53 - 1.7e-14) = p * ((1e-14 + 1.7e-14 / 16.53) / (16.53 - 1.7e-14)) by ring]
      norm_num at *
      constructor <;> linarith)
  obtain ⟨τ, eτ, hτ⟩ := (Approx.exact 1386).div hF hb (m := 273.15) (M := 5.075) (δ' := 1.92e-13) (by rw [abs_of_pos T0']; exact T0)
    (by rw [abs_of_pos (by positivity)]; exact t1) (by norm_num)
  have hP' : Rel P (p / 16.53) 1.25e-14 := by rw [Rel, abs_of_nonneg q0]; exact hP
  have s1 := L7.sub hF (hP.mono (δ' := 7.6e-14) (by norm_num at *; linarith)) (M := 7.1) (δ' := 1e-13)
    (by rw [abs_le]; norm_num at *; constructor <;> linarith) (by norm_num)
  have s2 := hτ.sub hF L1 (M := 3.86) (δ' := 2e-13) (by rw [abs_le]; norm_num at *; constructor <;> linarith) (by norm_num)
  have x1 : 1 ≤ 7.1 - p / 16.53 := by norm_num at *; linarith
  have y1 : 1 ≤ 1386 / T - 1.222 := by norm_num at *; linarith
  refine ⟨P, τ, eP, eτ, hP', hτ, s1.mono ?_, s2.mono ?_, x1, by linarith, y1, by norm_num at *; linarith⟩
  · rw [abs_of_pos (by linarith)]; norm_num at *; linarith
  · rw [abs_of_pos (by linarith)]; norm_num at *; linarith

private theorem litR (hF : F.Digits15) : Approx (F.lit Constants.SPECIFIC_GAS_CONSTANT) R 4.7e-16 :=
  .lit hF _ (by norm_num [Constants.SPECIFIC_GAS_CONSTANT, R]) (M := 0.462) (by norm_num [abs_le, R]) (by norm_num)

private theorem abs_sum_le {α : Type} (l : List α) (g X : α → ℝ) (h : ∀ a, |g a| ≤ X a) : |(l.map g).sum| ≤ (l.map X).sum := by
  induction l with
  | nil => simp
  | cons a l ih => simpa using (abs_add_le _ _).trans (add_le_add (h a) ih)

private theorem d00 (t : Term) (x y : ℝ) : Term.d t 0 0 x y = t.n * x ^ t.I * 1 * y ^ t.J := by
  simp only [Term.d, ff, Nat.cast_zero, sub_zero]; ring
private theorem d01 (t : Term) (x y : ℝ) : Term.d t 0 1 x y = t.n * x ^ t.I * t.J * y ^ (t.J - 1) := by
  simp only [Term.d, ff, Nat.cast_zero, Nat.cast_one, sub_zero]; ring
private theorem d10 (t : Term) (x y : ℝ) : Term.d t 1 0 x y = t.n * t.I * x ^ (t.I - 1) * y ^ t.J := by
  simp only [Term.d, ff, Nat.cast_zero, Nat.cast_one, sub_zero]; ring

private theorem term_h1 (hF : F.Digits15) {a b : Num} {x y : ℝ} (ha : Rel a x 1e-13) (hb : Rel b y 2e-13) (x1 : 1 ≤ x) (x2 : x ≤ 7.1)
    (y1 : 1 ≤ y) (y2 : y ≤ 3.86) {t : Term} (ht : t ∈ region1) :
    ∃ A B m, F.pow a (Num.ofInt t.I) = pure A ∧ F.pow b (Num.ofInt (t.J - 1)) = pure B ∧
      F.mul (F.mul (F.mul (F.lit t.n) A) (Num.ofInt t.J)) B = .fin m ∧ |m - Term.d t 0 1 x y| ≤ 1.52e-11 * b1 0 1 t := by
  obtain ⟨A, B, eA, eB, hn, hA, hB, rn, rA, rB, rI, rJ⟩ := factors1 hF ha hb x1 x2 y1 y2 ht 0 1 (by norm_num) (by norm_num)
  rw [sub_zero] at eA hA rA
  obtain ⟨m, em, dm⟩ := hn.prod4 hF hA (.exact _) hB rn rA rJ rB (η' := 1.52e-11) (by norm_num) (by norm_num) (by norm_num)
  have := le_b1 x1 x2 y1 y2 0 1 t
  rw [d01] at this ⊢
  exact ⟨A, B, m, eA, eB, by rw [ofInt_eq]; exact em, dm.trans (mul_le_mul_of_nonneg_left this (by norm_num))⟩

private theorem term_v1 (hF : F.Digits15) {a b : Num} {x y : ℝ} (ha : Rel a x 1e-13) (hb : Rel b y 2e-13) (x1 : 1 ≤ x) (x2 : x ≤ 7.1)
    (y1 : 1 ≤ y) (y2 : y ≤ 3.86) {t : Term} (ht : t ∈ region1) :
    ∃ A B m, F.pow a (Num.ofInt (t.I - 1)) = pure A ∧ F.pow b (Num.ofInt t.J) = pure B ∧
      F.mul (F.mul (F.mul (F.lit t.n) (Num.ofInt t.I)) A) B = .fin m ∧ |(-m) - -Term.d t 1 0 x y| ≤ 1.52e-11 * b1 1 0 t := by
  obtain ⟨A, B, eA, eB, hn, hA, hB, rn, rA, rB, rI, rJ⟩ := factors1 hF ha hb x1 x2 y1 y2 ht 1 0 (by norm_num) (by norm_num)
  rw [sub_zero] at eB hB rB
  obtain ⟨m, em, dm⟩ := hn.prod4 hF (.exact _) hA hB rn rI rA rB (η' := 1.52e-11) (by norm_num) (by norm_num) (by norm_num)
  have := le_b1 x1 x2 y1 y2 1 0 t
  rw [d10] at this ⊢
  exact ⟨A, B, m, eA, eB, by rw [ofInt_eq]; exact em, by
    rw [show ∀ u v : ℝ, -u - -v = -(u - v) from fun u v => by ring, abs_neg]
    exact dm.trans (mul_le_mul_of_nonneg_left this (by norm_num))⟩

private theorem term_g1 (hF : F.Digits15) {a b : Num} {x y : ℝ} (ha : Rel a x 1e-13) (hb : Rel b y 2e-13) (x1 : 1 ≤ x) (x2 : x ≤ 7.1)
    (y1 : 1 ≤ y) (y2 : y ≤ 3.86) {t : Term} (ht : t ∈ region1) :
    ∃ A B m, F.pow a (Num.ofInt t.I) = pure A ∧ F.pow b (Num.ofInt t.J) = pure B ∧
      F.mul (F.mul (F.lit t.n) A) B = .fin m ∧ |m - Term.d t 0 0 x y| ≤ 1.52e-11 * b1 0 0 t := by
  obtain ⟨A, B, eA, eB, hn, hA, hB, rn, rA, rB, rI, rJ⟩ := factors1 hF ha hb x1 x2 y1 y2 ht 0 0 (by norm_num) (by norm_num)
  rw [sub_zero] at eA eB hA hB rA rB
  obtain ⟨m, em, dm⟩ := (hn.mul hF hA (rn.mul rA) (η' := 4.1e-12) (by norm_num) (by norm_num)).mul hF hB ((rn.mul rA).mul rB) (η' := 1.52e-11)
    (by norm_num) (by norm_num)
  have := le_b1 x1 x2 y1 y2 0 0 t
  rw [d00, mul_one] at this ⊢
  exact ⟨A, B, m, eA, eB, em, dm.trans (mul_le_mul_of_nonneg_left this (by norm_num))⟩

private theorem abs_sum_le' {α : Type} (l : List α) (g X : α → ℝ) (h : ∀ a ∈ l, |g a| ≤ X a) : |(l.map g).sum| ≤ (l.map X).sum := by
  induction l with
  | nil => simp
  | cons a l ih =>
    simpa using (abs_add_le _ _).trans (add_le_add (h a List.mem_cons_self) (ih fun b hb => h b (List.mem_cons_of_mem _ hb)))

theorem h1_pT_float (hF : F.Digits15) {a b : Num} {p T : ℝ} (ha : Approx a p (1e-14 * p)) (hb : Approx b T 1e-11)
    (p0 : 0.0006 ≤ p) (p1 : p ≤ 100) (T0 : 273.15 ≤ T) (T1 : T ≤ 623.15) :
    ∃ n, Region1.h1_pT F a b = pure n ∧ Approx n (gamma1.h p T) 5e-4 ∧ |gamma1.h p T| ≤ 3e7 := by
  obtain ⟨P, τ, eP, eτ, hP, hτ, hx, hy, x1, x2, y1, y2⟩ := bases1 hF ha hb p0 p1 T0 T1
  have T0' : 0 < T := by norm_num at *; linarith
  have P0 : 0 < p := by norm_num at *; linarith
  have t1 : 1386 / T ≤ 5.075 := by rw [div_le_iff₀ T0']; norm_num at *; linarith
  have q1 : p / 16.53 ≤ 6.05 := by rw [div_le_iff₀ (by norm_num)]; norm_num at *; linarith
  have q0 : 0 < p / 16.53 := by positivity
  have iI1 : Region1.h1_pT.I1 = region1.map Term.I := rfl
  have iJ1 : Region1.h1_pT.J1 = region1.map Term.J := rfl
  have in1 : Region1.h1_pT.n1 = region1.map Term.n := rfl
  have R0 : 0 < R := by norm_num [R]
  have R1 : R ≤ 0.462 := by norm_num [R]
  have RT1 : R * T ≤ 288 := by norm_num [R] at *; linarith
  have RT2 : 126 ≤ R * T := by norm_num [R] at *; linarith
  have m1 := (litR hF).mul hF hb (X := 0.462) (Y := 623.15) (δ' := 6e-12) (by rw [abs_of_pos R0]; exact R1) (by rw [abs_of_pos T0']; exact T1) (by norm_num)
  set x := 7.1 - p / 16.53 with hxd
  set y := 1386 / T - 1.222 with hyd
  unfold Region1.h1_pT
  rw [iI1, iJ1, in1]
  simp only [eP, eτ, pure_bind]
  obtain ⟨r, er, hr⟩ := loop_float hF region1 (N := 34) rfl (fun t => Term.d t 0 1 x y) (b1 0 1) (η := 1.52e-11) (S := 45600) (δ := 7.1e-7) (fun i s => do
      let s := (F.add s (F.mul (F.mul (F.mul (F.lit (← idx (region1.map Term.n) i)) (← F.pow (F.sub (F.lit 7.1) P) (Num.ofInt (← idx (region1.map Term.I) i)))) (Num.ofInt (← idx (region1.map Term.J) i))) (← F.pow (F.sub τ (F.lit 1.222)) (Num.ofInt ((← idx (region1.map Term.J) i) - 1)))))
      pure s) (fun t _ => le_b1 x1 x2 y1 y2 0 1 t) sum_h1 (by norm_num) (by norm_num) (by
    intro i hi
    obtain ⟨A, B, m, eA, eB, em, dm⟩ := term_h1 hF hx hy x1 x2 y1 y2 (List.getElem_mem hi)
    refine ⟨m, dm, fun s => ?_⟩
    simp only [idx_map _ hi, pure_bind, eA, eB, em]
    rfl)
  rw [er]
  refine ⟨_, rfl, ?_⟩
  have hS := (abs_sum_le region1 (fun t => Term.d t 0 1 x y) (b1 0 1) (le_b1 x1 x2 y1 y2 0 1)).trans sum_h1
  have m2 := m1.mul hF hτ (X := 288) (Y := 5.075) (δ' := 1e-10) (by rw [abs_of_pos (by linarith)]; exact RT1)
    (by rw [abs_of_pos (by positivity)]; exact t1) (by norm_num)
  have m3 := m2.mul hF hr (X := 640) (Y := 45600) (δ' := 5e-4)
    (by rw [show R * T * (1386 / T) = R * 1386 by field_simp]; norm_num [R, abs_le]) hS (by norm_num)
  have e : gamma1.h p T = R * T * (1386 / T) * (region1.map fun t => Term.d t 0 1 x y).sum := by
    rw [show R * T * (1386 / T) = R * 1386 by field_simp]
    rfl
  rw [e]
  refine ⟨m3, ?_⟩
  rw [show R * T * (1386 / T) = R * 1386 by field_simp, abs_mul]
  exact (mul_le_mul (show |R * 1386| ≤ 640 by norm_num [R, abs_le]) hS (abs_nonneg _) (by norm_num)).trans (by norm_num)

theorem v1_pT_float (hF : F.Digits15) {a b : Num} {p T : ℝ} (ha : Approx a p (1e-14 * p)) (hb : Approx b T 1e-11)
    (p0 : 0.0006 ≤ p) (p1 : p ≤ 100) (T0 : 273.15 ≤ T) (T1 : T ≤ 623.15) :
    ∃ n, Region1.v1_pT F a b = pure n ∧ Approx n (gamma1.v p T) 1.5e-9 ∧ |gamma1.v p T| ≤ 100 := by
  obtain ⟨P, τ, eP, eτ, hP, hτ, hx, hy, x1, x2, y1, y2⟩ := bases1 hF ha hb p0 p1 T0 T1
  have T0' : 0 < T := by norm_num at *; linarith
  have P0 : 0 < p := by norm_num at *; linarith
  have t1 : 1386 / T ≤ 5.075 := by rw [div_le_iff₀ T0']; norm_num at *; linarith
  have q1 : p / 16.53 ≤ 6.05 := by rw [div_le_iff₀ (by norm_num)]; norm_num at *; linarith
  have q0 : 0 < p / 16.53 := by positivity
  have iI1 : Region1.v1_pT.I1 = region1.map Term.I := rfl
  have iJ1 : Region1.v1_pT.J1 = region1.map Term.J := rfl
  have in1 : Region1.v1_pT.n1 = region1.map Term.n := rfl
  have R0 : 0 < R := by norm_num [R]
  have R1 : R ≤ 0.462 := by norm_num [R]
  have RT1 : R * T ≤ 288 := by norm_num [R] at *; linarith
  have RT2 : 126 ≤ R * T := by norm_num [R] at *; linarith
  have m1 := (litR hF).mul hF hb (X := 0.462) (Y := 623.15) (δ' := 6e-12) (by rw [abs_of_pos R0]; exact R1) (by rw [abs_of_pos T0']; exact T1) (by norm_num)
  set x := 7.1 - p / 16.53 with hxd
  set y := 1386 / T - 1.222 with hyd
  unfold Region1.v1_pT
  rw [iI1, iJ1, in1]
  simp only [eP, eτ, pure_bind]
  have bd : ∀ t, |(-Term.d t 1 0 x y)| ≤ b1 1 0 t := fun t => by rw [abs_neg]; exact le_b1 x1 x2 y1 y2 1 0 t
  obtain ⟨r, er, hr⟩ := loop_float hF region1 (N := 34) rfl (fun t => -Term.d t 1 0 x y) (b1 1 0) (η := 1.52e-11) (S := 4960) (δ := 7.7e-8) (fun i s => do
      let s := (F.sub s (F.mul (F.mul (F.mul (F.lit (← idx (region1.map Term.n) i)) (Num.ofInt (← idx (region1.map Term.I) i))) (← F.pow (F.sub (F.lit 7.1) P) (Num.ofInt ((← idx (region1.map Term.I) i) - 1)))) (← F.pow (F.sub τ (F.lit 1.222)) (Num.ofInt (← idx (region1.map Term.J) i)))))
      pure s) (fun t _ => bd t) sum_v1 (by norm_num) (by norm_num) (by
    intro i hi
    obtain ⟨A, B, m, eA, eB, em, dm⟩ := term_v1 hF hx hy x1 x2 y1 y2 (List.getElem_mem hi)
    refine ⟨-m, dm, fun s => ?_⟩
    simp only [idx_map _ hi, pure_bind, eA, eB, em]
    rw [← sub_eq_add_neg]
    rfl)
  rw [er]
  have hS := (abs_sum_le region1 (fun t => -Term.d t 1 0 x y) (b1 1 0) bd).trans sum_v1
  have r1 : Rel (F.mul (F.lit Constants.SPECIFIC_GAS_CONSTANT) b) (R * T) 5e-14 :=
    m1.mono (by rw [abs_of_pos (by linarith)]; norm_num at *; linarith)
  have ha' : Rel a p 1e-14 := by rw [Rel, abs_of_pos P0]; exact ha
  have rg : Rng (R * T / p) 6 := by
    right
    rw [abs_of_pos (by positivity), le_div_iff₀ P0, div_le_iff₀ P0]
    norm_num at *
    constructor <;> linarith
  obtain ⟨q, eq, hq⟩ := r1.div hF ha' P0.ne' rg (η' := 6.3e-14) (by norm_num) (by norm_num)
  have rp : Rng (p / 16.53) 5 := by
    right
    rw [abs_of_pos (by positivity), le_div_iff₀ (by norm_num), div_le_iff₀ (by norm_num)]
    norm_num at *
    constructor <;> linarith
  have r2 := hq.mul hF hP (rg.mul rp) (η' := 8e-14) (by norm_num) (by norm_num)
  rw [show R * T / p * (p / 16.53) = R * T / 16.53 by field_simp] at r2
  have a2 : |R * T / 16.53| ≤ 17.5 := by
    rw [abs_of_pos (by positivity), div_le_iff₀ (by norm_num)]; norm_num at *; linarith
  have m2 := (r2.abs (δ := 1.4e-12) (by norm_num at *; linarith)).mul hF hr (X := 17.5) (Y := 4960) (δ' := 1.36e-6) a2 hS (by norm_num)
  obtain ⟨n, en, hn⟩ := m2.div hF (Approx.exact 1000) (m := 1000) (M := 100) (δ' := 1.5e-9) (by norm_num [abs_of_pos])
    (by rw [abs_div, abs_mul, div_le_iff₀ (by norm_num [abs_of_pos])]
        refine (mul_le_mul a2 hS (abs_nonneg _) (by norm_num)).trans (by norm_num [abs_of_pos])) (by norm_num)
  refine ⟨n, by simp only [pure_bind, eq, i1000, en], ?_⟩
  have e : gamma1.v p T = R * T / 16.53 * (region1.map fun t => -Term.d t 1 0 x y).sum / 1000 := by
    have : gamma1.v p T = R * T * (-(region1.map fun t => Term.d t 1 0 x y).sum) / (1000 * 16.53) := rfl
    rw [this, sum_neg_map]
    ring
  rw [e]
  refine ⟨hn, ?_⟩
  rw [abs_div, abs_mul, div_le_iff₀ (by norm_num [abs_of_pos])]
  exact (mul_le_mul a2 hS (abs_nonneg _) (by norm_num)).trans (by norm_num [abs_of_pos])

theorem u1_pT_float (hF : F.Digits15) {a b : Num} {p T : ℝ} (ha : Approx a p (1e-14 * p)) (hb : Approx b T 1e-11)
    (p0 : 0.0006 ≤ p) (p1 : p ≤ 100) (T0 : 273.15 ≤ T) (T1 : T ≤ 623.15) :
    ∃ n, Region1.u1_pT F a b = pure n ∧ Approx n (gamma1.u p T) 1.3e-3 ∧ |gamma1.u p T| ≤ 8e7 := by
  obtain ⟨P, τ, eP, eτ, hP, hτ, hx, hy, x1, x2, y1, y2⟩ := bases1 hF ha hb p0 p1 T0 T1
  have T0' : 0 < T := by norm_num at *; linarith
  have P0 : 0 < p := by norm_num at *; linarith
  have t1 : 1386 / T ≤ 5.075 := by rw [div_le_iff₀ T0']; norm_num at *; linarith
  have q1 : p / 16.53 ≤ 6.05 := by rw [div_le_iff₀ (by norm_num)]; norm_num at *; linarith
  have q0 : 0 < p / 16.53 := by positivity
  have iI1 : Region1.u1_pT.I1 = region1.map Term.I := rfl
  have iJ1 : Region1.u1_pT.J1 = region1.map Term.J := rfl
  have in1 : Region1.u1_pT.n1 = region1.map Term.n := rfl
  have R0 : 0 < R := by norm_num [R]
  have R1 : R ≤ 0.462 := by norm_num [R]
  have RT1 : R * T ≤ 288 := by norm_num [R] at *; linarith
  have RT2 : 126 ≤ R * T := by norm_num [R] at *; linarith
  have m1 := (litR hF).mul hF hb (X := 0.462) (Y := 623.15) (δ' := 6e-12) (by rw [abs_of_pos R0]; exact R1) (by rw [abs_of_pos T0']; exact T1) (by norm_num)
  set x := 7.1 - p / 16.53 with hxd
  set y := 1386 / T - 1.222 with hyd
  unfold Region1.u1_pT
  rw [iI1, iJ1, in1]
  simp only [eP, eτ, pure_bind]
  have bd : ∀ t, |(-Term.d t 1 0 x y)| ≤ b1 1 0 t := fun t => by rw [abs_neg]; exact le_b1 x1 x2 y1 y2 1 0 t
  obtain ⟨r', r, er, hr', hr⟩ := loop_float2 hF region1 (N := 34) rfl (fun t => -Term.d t 1 0 x y) (fun t => Term.d t 0 1 x y) (b1 1 0) (b1 0 1)
    (η := 1.52e-11) (S := 4960) (S' := 45600) (δ := 7.7e-8) (δ' := 7.1e-7) (fun i (s, s') => do
      let s := (F.sub s (F.mul (F.mul (F.mul (F.lit (← idx (region1.map Term.n) i)) (Num.ofInt (← idx (region1.map Term.I) i))) (← F.pow (F.sub (F.lit 7.1) P) (Num.ofInt ((← idx (region1.map Term.I) i) - 1)))) (← F.pow (F.sub τ (F.lit 1.222)) (Num.ofInt (← idx (region1.map Term.J) i)))))
      let s' := (F.add s' (F.mul (F.mul (F.mul (F.lit (← idx (region1.map Term.n) i)) (← F.pow (F.sub (F.lit 7.1) P) (Num.ofInt (← idx (region1.map Term.I) i)))) (Num.ofInt (← idx (region1.map Term.J) i))) (← F.pow (F.sub τ (F.lit 1.222)) (Num.ofInt ((← idx (region1.map Term.J) i) - 1)))))
      pure (s, s')) (fun t _ => bd t) sum_v1 (by norm_num) (by norm_num) (fun t _ => le_b1 x1 x2 y1 y2 0 1 t) sum_h1 (by norm_num) (by norm_num) (by
    intro i hi
    obtain ⟨A, B, m, eA, eB, em, dm⟩ := term_v1 hF hx hy x1 x2 y1 y2 (List.getElem_mem hi)
    obtain ⟨A', B', m', eA', eB', em', dm'⟩ := term_h1 hF hx hy x1 x2 y1 y2 (List.getElem_mem hi)
    refine ⟨-m, m', dm, dm', fun s s' => ?_⟩
    simp only [idx_map _ hi, pure_bind, eA, eB, em, eA', eB', em']
    rw [← sub_eq_add_neg]
    rfl)
  rw [er]
  refine ⟨_, rfl, ?_⟩
  have hS := (abs_sum_le region1 (fun t => Term.d t 0 1 x y) (b1 0 1) (le_b1 x1 x2 y1 y2 0 1)).trans sum_h1
  have hS' := (abs_sum_le region1 (fun t => -Term.d t 1 0 x y) (b1 1 0) bd).trans sum_v1
  have aτ : |1386 / T| ≤ 5.075 := by rw [abs_of_pos (by positivity)]; exact t1
  have aP : |p / 16.53| ≤ 6.05 := by rw [abs_of_pos q0]; exact q1
  have m2 := hτ.mul hF hr (X := 5.075) (Y := 45600) (δ' := 3.7e-6) aτ hS (by norm_num)
  have m3 := (hP.abs (δ := 8e-14) (by norm_num at *; linarith)).mul hF hr' (X := 6.05) (Y := 4960) (δ' := 4.8e-7) aP hS' (by norm_num)
  have n2 : |1386 / T * (region1.map fun t => Term.d t 0 1 x y).sum| ≤ 231420 := by
    rw [abs_mul]; exact (mul_le_mul aτ hS (abs_nonneg _) (by norm_num)).trans (by norm_num)
  have n3 : |p / 16.53 * (region1.map fun t => -Term.d t 1 0 x y).sum| ≤ 30008 := by
    rw [abs_mul]; exact (mul_le_mul aP hS' (abs_nonneg _) (by norm_num)).trans (by norm_num)
  have n4 := (abs_sub _ _).trans (add_le_add n2 n3)
  have m4 := m2.sub hF m3 (M := 231420 + 30008) (δ' := 4.2e-6) n4 (by norm_num)
  have m5 := m1.mul hF m4 (X := 288) (Y := 231420 + 30008) (δ' := 1.3e-3) (by rw [abs_of_pos (by linarith)]; exact RT1) n4 (by norm_num)
  have e : gamma1.u p T = R * T * (1386 / T * (region1.map fun t => Term.d t 0 1 x y).sum - p / 16.53 * (region1.map fun t => -Term.d t 1 0 x y).sum) := by
    rw [sum_neg_map]
    rfl
  rw [e]
  refine ⟨m5, ?_⟩
  rw [abs_mul, abs_of_pos (show 0 < R * T by linarith)]
  exact (mul_le_mul RT1 n4 (abs_nonneg _) (by norm_num)).trans (by norm_num)

theorem s1_pT_float (hF : F.Digits15) {a b : Num} {p T : ℝ} (ha : Approx a p (1e-14 * p)) (hb : Approx b T 1e-11)
    (p0 : 0.0006 ≤ p) (p1 : p ≤ 100) (T0 : 273.15 ≤ T) (T1 : T ≤ 623.15) :
    ∃ n, Region1.s1_pT F a b = pure n ∧ Approx n (gamma1.s p T) 1.8e-6 ∧ |gamma1.s p T| ≤ 1.1e5 := by
  obtain ⟨P, τ, eP, eτ, hP, hτ, hx, hy, x1, x2, y1, y2⟩ := bases1 hF ha hb p0 p1 T0 T1
  have T0' : 0 < T := by norm_num at *; linarith
  have P0 : 0 < p := by norm_num at *; linarith
  have t1 : 1386 / T ≤ 5.075 := by rw [div_le_iff₀ T0']; norm_num at *; linarith
  have q1 : p / 16.53 ≤ 6.05 := by rw [div_le_iff₀ (by norm_num)]; norm_num at *; linarith
  have q0 : 0 < p / 16.53 := by positivity
  have iI1 : Region1.s1_pT.I1 = region1.map Term.I := rfl
  have iJ1 : Region1.s1_pT.J1 = region1.map Term.J := rfl
  have in1 : Region1.s1_pT.n1 = region1.map Term.n := rfl
  have R0 : 0 < R := by norm_num [R]
  have R1 : R ≤ 0.462 := by norm_num [R]
  have RT1 : R * T ≤ 288 := by norm_num [R] at *; linarith
  have RT2 : 126 ≤ R * T := by norm_num [R] at *; linarith
  have m1 := (litR hF).mul hF hb (X := 0.462) (Y := 623.15) (δ' := 6e-12) (by rw [abs_of_pos R0]; exact R1) (by rw [abs_of_pos T0']; exact T1) (by norm_num)
  set x := 7.1 - p / 16.53 with hxd
  set y := 1386 / T - 1.222 with hyd
  unfold Region1.s1_pT
  rw [iI1, iJ1, in1]
  simp only [eP, eτ, pure_bind]
  obtain ⟨r, r', er, hr, hr'⟩ := loop_float2 hF region1 (N := 34) rfl (fun t => Term.d t 0 1 x y) (fun t => Term.d t 0 0 x y) (b1 0 1) (b1 0 0)
    (η := 1.52e-11) (S := 45600) (S' := 1200) (δ := 7.1e-7) (δ' := 1.9e-8) (fun i (s, s') => do
      let s := (F.add s (F.mul (F.mul (F.mul (F.lit (← idx (region1.map Term.n) i)) (← F.pow (F.sub (F.lit 7.1) P) (Num.ofInt (← idx (region1.map Term.I) i)))) (Num.ofInt (← idx (region1.map Term.J) i))) (← F.pow (F.sub τ (F.lit 1.222)) (Num.ofInt ((← idx (region1.map Term.J) i) - 1)))))
      let s' := (F.add s' (F.mul (F.mul (F.lit (← idx (region1.map Term.n) i)) (← F.pow (F.sub (F.lit 7.1) P) (Num.ofInt (← idx (region1.map Term.I) i)))) (← F.pow (F.sub τ (F.lit 1.222)) (Num.ofInt (← idx (region1.map Term.J) i)))))
      pure (s, s')) (fun t _ => le_b1 x1 x2 y1 y2 0 1 t) sum_h1 (by norm_num) (by norm_num) (fun t _ => le_b1 x1 x2 y1 y2 0 0 t) sum_g1 (by norm_num) (by norm_num) (by
    intro i hi
    obtain ⟨A, B, m, eA, eB, em, dm⟩ := term_h1 hF hx hy x1 x2 y1 y2 (List.getElem_mem hi)
    obtain ⟨A', B', m', eA', eB', em', dm'⟩ := term_g1 hF hx hy x1 x2 y1 y2 (List.getElem_mem hi)
    refine ⟨m, m', dm, dm', fun s s' => ?_⟩
    have : A' = A := by rw [eA] at eA'; injection eA' with _ o; injection o with o; exact o.symm
    subst this
    simp only [idx_map _ hi, pure_bind, eA, eB, em, eB', em']
    rfl)
  rw [er]
  refine ⟨_, rfl, ?_⟩
  have hS := (abs_sum_le region1 (fun t => Term.d t 0 1 x y) (b1 0 1) (le_b1 x1 x2 y1 y2 0 1)).trans sum_h1
  have hS' := (abs_sum_le region1 (fun t => Term.d t 0 0 x y) (b1 0 0) (le_b1 x1 x2 y1 y2 0 0)).trans sum_g1
  have aτ : |1386 / T| ≤ 5.075 := by rw [abs_of_pos (by positivity)]; exact t1
  have aR : |R| ≤ 0.462 := by rw [abs_of_pos R0]; exact R1
  have m2 := (litR hF).mul hF hτ (X := 0.462) (Y := 5.075) (δ' := 9.5e-14) aR aτ (by norm_num)
  have n2 : |R * (1386 / T)| ≤ 2.345 := by rw [abs_mul]; exact (mul_le_mul aR aτ (abs_nonneg _) (by norm_num)).trans (by norm_num)
  have m3 := m2.mul hF hr (X := 2.345) (Y := 45600) (δ' := 1.7e-6) n2 hS (by norm_num)
  have m4 := (litR hF).mul hF hr' (X := 0.462) (Y := 1200) (δ' := 1e-8) aR hS' (by norm_num)
  have n3 : |R * (1386 / T) * (region1.map fun t => Term.d t 0 1 x y).sum| ≤ 107000 := by
    rw [abs_mul]; exact (mul_le_mul n2 hS (abs_nonneg _) (by norm_num)).trans (by norm_num)
  have n4 : |R * (region1.map fun t => Term.d t 0 0 x y).sum| ≤ 555 := by
    rw [abs_mul]; exact (mul_le_mul aR hS' (abs_nonneg _) (by norm_num)).trans (by norm_num)
  have m5 := m3.sub hF m4 (M := 107000 + 555) (δ' := 1.8e-6) ((abs_sub _ _).trans (add_le_add n3 n4)) (by norm_num)
  have e : gamma1.s p T = R * (1386 / T) * (region1.map fun t => Term.d t 0 1 x y).sum - R * (region1.map fun t => Term.d t 0 0 x y).sum := by
    have : gamma1.s p T = R * (1386 / T * (region1.map fun t => Term.d t 0 1 x y).sum - (region1.map fun t => Term.d t 0 0 x y).sum) := rfl
    rw [this]
    ring
  rw [e]
  exact ⟨m5, ((abs_sub _ _).trans (add_le_add n3 n4)).trans (by norm_num)⟩

/-! ## Region 5 -/

private theorem facts5 : ∀ t ∈ region5, 1 ≤ t.I ∧ t.I ≤ 3 ∧ 0 ≤ t.J ∧ t.J ≤ 9 ∧ (1 : ℚ) / 10 ^ 7 ≤ |t.n| ∧ |t.n| ≤ 10 := by
  unfold region5
  simp only [List.forall_mem_cons]
  norm_num [abs_of_pos, abs_of_neg]

private theorem facts50 : ∀ t ∈ region5Ideal, t.I = 0 ∧ -3 ≤ t.J ∧ t.J ≤ 2 ∧ (1 : ℚ) / 10 ^ 2 ≤ |t.n| ∧ |t.n| ≤ 20 := by
  unfold region5Ideal
  simp only [List.forall_mem_cons]
  norm_num [abs_of_pos, abs_of_neg]

/-- a bound on the derivative of a term on the rectangle around region 5 -/
private noncomputable def b5 (k l : ℕ) (t : Term) : ℝ :=
  |(t.n : ℝ)| * (|ff t.I k| * 50 ^ (t.I - k)) * (|ff t.J l| * (if l ≤ t.J then 0.94 ^ (t.J - l) else 0.43 ^ (t.J - l)))

private theorem zpow_bound5 {τ : ℝ} (h1 : 0.43 ≤ τ) (h2 : τ ≤ 0.94) (m n : ℤ) : τ ^ (m - n) ≤ if n ≤ m then 0.94 ^ (m - n) else 0.43 ^ (m - n) := by
  have h0 : 0 < τ := lt_of_lt_of_le (by norm_num) h1
  split_ifs with h
  · exact zpow_le_zpow_left₀ (by omega) h0.le h2
  · obtain ⟨j, hj⟩ : ∃ j : ℕ, m - n = -(j : ℤ) := ⟨(n - m).toNat, by omega⟩
    rw [hj, zpow_neg, zpow_neg, zpow_natCast, zpow_natCast]
    exact inv_anti₀ (by positivity) (pow_le_pow_left₀ (by norm_num) h1 j)

private theorem le_b5 {p τ : ℝ} (p0 : 0 < p) (p1 : p ≤ 50) (t0 : 0.43 ≤ τ) (t1 : τ ≤ 0.94) {k : ℕ} (l : ℕ) {t : Term} (hk : k ≤ t.I) :
    |Term.d t k l p τ| ≤ b5 k l t := by
  have hx : p ^ (t.I - k) ≤ 50 ^ (t.I - k) := zpow_le_zpow_left₀ (by omega) p0.le p1
  have hy := zpow_bound5 t0 t1 t.J l
  have px : 0 < p ^ (t.I - k) := zpow_pos p0 _
  have py : 0 < τ ^ (t.J - l) := zpow_pos (lt_of_lt_of_le (by norm_num) t0) _
  rw [Term.d, b5, abs_mul, abs_mul, abs_mul, abs_mul, abs_of_pos px, abs_of_pos py]
  gcongr

private theorem sum_h5 : (region5.map (b5 0 1)).sum ≤ 1 := by norm_num [region5, b5, ff, abs_of_pos, abs_of_neg]
private theorem sum_v5 : (region5.map (b5 1 0)).sum ≤ 0.01 := by norm_num [region5, b5, ff, abs_of_pos, abs_of_neg]
private theorem sum_h50 : (region5Ideal.map (b5 0 1)).sum ≤ 36 := by norm_num [region5Ideal, b5, ff, abs_of_pos, abs_of_neg]

private theorem factors5 (hF : F.Digits15) {a b : Num} {p τ : ℝ} (ha : Rel a p 1e-14) (hb : Rel b τ 1e-13) (p0 : 0.0006 ≤ p) (p1 : p ≤ 50)
    (t0 : 0.43 ≤ τ) (t1 : τ ≤ 0.94) {t : Term} (ht : t ∈ region5) (k l : ℤ) (hk : 0 ≤ k ∧ k ≤ 1) (hl : 0 ≤ l ∧ l ≤ 1) :
    ∃ A B, F.pow a (Num.ofInt (t.I - k)) = pure A ∧ F.pow b (Num.ofInt (t.J - l)) = pure B ∧ Rel (F.lit t.n) t.n 1e-15 ∧
      Rel A (p ^ (t.I - k)) 4e-14 ∧ Rel B (τ ^ (t.J - l)) 1.1e-12 ∧ Rng t.n 7 ∧ Rng (p ^ (t.I - k)) 12 ∧ Rng (τ ^ (t.J - l)) 10 ∧
      Rng t.I 2 ∧ Rng t.J 2 := by
  obtain ⟨h1, h2, h3, h4, h5, h6⟩ := facts5 t ht
  have x0 : 0 < p := lt_of_lt_of_le (by norm_num) p0
  have y0 : 0 < τ := lt_of_lt_of_le (by norm_num) t0
  have rx : Rng (p ^ (t.I - k)) 12 :=
    (Rng.zpow (k := 4) (.inr (by rw [abs_of_pos x0]; norm_num at *; constructor <;> linarith)) x0.ne' _).mono (by omega)
  have ry : Rng (τ ^ (t.J - l)) 10 :=
    (Rng.zpow (k := 1) (.inr (by rw [abs_of_pos y0]; norm_num at *; constructor <;> linarith)) y0.ne' _).mono (by omega)
  obtain ⟨A, eA, hA⟩ := ha.zpow hF x0 (t.I - k) 3 (η' := 4e-14) (by rw [← Int.cast_abs]; exact_mod_cast (by rw [abs_le]; omega)) rx (by norm_num)
    (by norm_num) (by norm_num)
  obtain ⟨B, eB, hB⟩ := hb.zpow hF y0 (t.J - l) 9 (η' := 1.1e-12) (by rw [← Int.cast_abs]; exact_mod_cast (by rw [abs_le]; omega)) ry (by norm_num)
    (by norm_num) (by norm_num)
  have n1 : (1 : ℝ) / 10 ^ 7 ≤ |(t.n : ℝ)| := by
    have : ((1 / 10 ^ 7 : ℚ) : ℝ) ≤ ((|t.n| : ℚ) : ℝ) := Rat.cast_le.2 h5
    simpa using this
  have n2 : |(t.n : ℝ)| ≤ 10 := by
    have : ((|t.n| : ℚ) : ℝ) ≤ ((10 : ℚ) : ℝ) := Rat.cast_le.2 h6
    simpa using this
  have iI : |(t.I : ℝ)| ≤ 10 ^ 2 := by rw [← Int.cast_abs]; exact_mod_cast (by rw [abs_le]; omega)
  have iJ : |(t.J : ℝ)| ≤ 10 ^ 2 := by rw [← Int.cast_abs]; exact_mod_cast (by rw [abs_le]; omega)
  exact ⟨A, B, eA, eB, .lit hF _ rfl (le_trans (by norm_num) n1) (n2.trans (by norm_num)), hA, hB,
    .inr ⟨by simpa using n1, n2.trans (by norm_num)⟩, rx, ry, .int _ iI, .int _ iJ⟩

private theorem term_h5 (hF : F.Digits15) {a b : Num} {p τ : ℝ} (ha : Rel a p 1e-14) (hb : Rel b τ 1e-13) (p0 : 0.0006 ≤ p) (p1 : p ≤ 50)
    (t0 : 0.43 ≤ τ) (t1 : τ ≤ 0.94) {t : Term} (ht : t ∈ region5) :
    ∃ A B m, F.pow a (Num.ofInt t.I) = pure A ∧ F.pow b (Num.ofInt (t.J - 1)) = pure B ∧
      F.mul (F.mul (F.mul (F.lit t.n) A) (Num.ofInt t.J)) B = .fin m ∧ |m - Term.d t 0 1 p τ| ≤ 1.2e-12 * b5 0 1 t := by
  obtain ⟨A, B, eA, eB, hn, hA, hB, rn, rA, rB, rI, rJ⟩ := factors5 hF ha hb p0 p1 t0 t1 ht 0 1 (by norm_num) (by norm_num)
  rw [sub_zero] at eA hA rA
  obtain ⟨m, em, dm⟩ := hn.prod4 hF hA (.exact _) hB rn rA rJ rB (η' := 1.2e-12) (by norm_num) (by norm_num) (by norm_num)
  have := le_b5 (lt_of_lt_of_le (by norm_num) p0) p1 t0 t1 (k := 0) 1 (t := t) (by have := (facts5 t ht).1; push_cast; omega)
  rw [d01] at this ⊢
  exact ⟨A, B, m, eA, eB, by rw [ofInt_eq]; exact em, dm.trans (mul_le_mul_of_nonneg_left this (by norm_num))⟩

private theorem term_v5 (hF : F.Digits15) {a b : Num} {p τ : ℝ} (ha : Rel a p 1e-14) (hb : Rel b τ 1e-13) (p0 : 0.0006 ≤ p) (p1 : p ≤ 50)
    (t0 : 0.43 ≤ τ) (t1 : τ ≤ 0.94) {t : Term} (ht : t ∈ region5) :
    ∃ A B m, F.pow a (Num.ofInt (t.I - 1)) = pure A ∧ F.pow b (Num.ofInt t.J) = pure B ∧
      F.mul (F.mul (F.mul (F.lit t.n) (Num.ofInt t.I)) A) B = .fin m ∧ |m - Term.d t 1 0 p τ| ≤ 1.2e-12 * b5 1 0 t := by
  obtain ⟨A, B, eA, eB, hn, hA, hB, rn, rA, rB, rI, rJ⟩ := factors5 hF ha hb p0 p1 t0 t1 ht 1 0 (by norm_num) (by norm_num)
  rw [sub_zero] at eB hB rB
  obtain ⟨m, em, dm⟩ := hn.prod4 hF (.exact _) hA hB rn rI rA rB (η' := 1.2e-12) (by norm_num) (by norm_num) (by norm_num)
  have := le_b5 (lt_of_lt_of_le (by norm_num) p0) p1 t0 t1 (k := 1) 0 (t := t) (by have := (facts5 t ht).1; push_cast; omega)
  rw [d10] at this ⊢
  exact ⟨A, B, m, eA, eB, by rw [ofInt_eq]; exact em, dm.trans (mul_le_mul_of_nonneg_left this (by norm_num))⟩

private theorem term_h50 (hF : F.Digits15) {b : Num} {τ : ℝ} (hb : Rel b τ 1e-13)
    (t0 : 0.43 ≤ τ) (t1 : τ ≤ 0.94) {t : Term} (ht : t ∈ region5Ideal) :
    ∃ B m, F.pow b (Num.ofInt (t.J - 1)) = pure B ∧
      F.mul (F.mul (F.lit t.n) (Num.ofInt t.J)) B = .fin m ∧ |m - Term.d t 0 1 1 τ| ≤ 1.2e-12 * b5 0 1 t := by
  obtain ⟨h1, h2, h3, h4, h5⟩ := facts50 t ht
  have y0 : 0 < τ := lt_of_lt_of_le (by norm_num) t0
  have ry : Rng (τ ^ (t.J - 1)) 10 :=
    (Rng.zpow (k := 1) (.inr (by rw [abs_of_pos y0]; norm_num at *; constructor <;> linarith)) y0.ne' _).mono (by omega)
  obtain ⟨B, eB, hB⟩ := hb.zpow hF y0 (t.J - 1) 9 (η' := 1.1e-12) (by rw [← Int.cast_abs]; exact_mod_cast (by rw [abs_le]; omega)) ry (by norm_num)
    (by norm_num) (by norm_num)
  have n1 : (1 : ℝ) / 10 ^ 2 ≤ |(t.n : ℝ)| := by
    have : ((1 / 10 ^ 2 : ℚ) : ℝ) ≤ ((|t.n| : ℚ) : ℝ) := Rat.cast_le.2 h4
    simpa using this
  have n2 : |(t.n : ℝ)| ≤ 20 := by
    have : ((|t.n| : ℚ) : ℝ) ≤ ((20 : ℚ) : ℝ) := Rat.cast_le.2 h5
    simpa using this
  have rn : Rng t.n 2 := .inr ⟨by simpa using n1, n2.trans (by norm_num)⟩
  have rJ : Rng t.J 2 := .int _ (by rw [← Int.cast_abs]; exact_mod_cast (by rw [abs_le]; omega))
  have hn : Rel (F.lit t.n) t.n 1e-15 := .lit hF _ rfl (le_trans (by norm_num) n1) (n2.trans (by norm_num))
  obtain ⟨m, em, dm⟩ := (hn.mul hF (.exact _) (rn.mul rJ) (η' := 3e-15) (by norm_num) (by norm_num)).mul hF hB ((rn.mul rJ).mul ry) (η' := 1.2e-12)
    (by norm_num) (by norm_num)
  have := le_b5 (p := 1) (by norm_num) (by norm_num) t0 t1 (k := 0) 1 (t := t) (by rw [h1]; simp)
  rw [d01, one_zpow, mul_one] at this ⊢
  exact ⟨B, m, eB, by rw [ofInt_eq]; exact em, dm.trans (mul_le_mul_of_nonneg_left this (by norm_num))⟩

theorem h5_pT_float (hF : F.Digits15) {a b : Num} {p T : ℝ} (ha : Approx a p (1e-14 * p)) (hb : Approx b T 1e-10)
    (p0 : 0.0006 ≤ p) (p1 : p ≤ 50) (T0 : 1073.15 ≤ T) (T1 : T ≤ 2273.15) :
    ∃ n, Region5.h5_pT F a b = pure n ∧ Approx n (gamma5.h p T) 4e-8 ∧ |gamma5.h p T| ≤ 2e4 := by
  have T0' : 0 < T := by norm_num at *; linarith
  have P0 : 0 < p := by norm_num at *; linarith
  have t0 : 0.43 ≤ 1000 / T := by rw [le_div_iff₀ T0']; norm_num at *; linarith
  have t1 : 1000 / T ≤ 0.94 := by rw [div_le_iff₀ T0']; norm_num at *; linarith
  have ha' : Rel a p 1e-14 := by rw [Rel, abs_of_pos P0]; exact ha
  have hb' : Rel b T 9.4e-14 := hb.mono (by rw [abs_of_pos T0']; norm_num at *; linarith)
  have hτ1 : Rng (1000 / T) 1 := .inr (by rw [abs_of_pos (by positivity)]; norm_num at *; constructor <;> linarith)
  obtain ⟨τ, eτ, hτ⟩ := (Rel.exact 1000).div hF hb' T0'.ne' hτ1 (η' := 1e-13) (by norm_num) (by norm_num)
  have aτ : |1000 / T| ≤ 0.94 := by rw [abs_of_pos (by positivity)]; exact t1
  have hτ' : Approx τ (1000 / T) 9.4e-14 := hτ.abs (by norm_num at *; linarith)
  have R0 : 0 < R := by norm_num [R]
  have aR : |R| ≤ 0.462 := by norm_num [R, abs_le]
  have RT1 : |R * T| ≤ 1050 := by rw [abs_of_pos (by positivity)]; norm_num [R] at *; linarith
  have m1 := (litR hF).mul hF hb (X := 0.462) (Y := 2273.15) (δ' := 5e-11) aR (by rw [abs_of_pos T0']; exact T1) (by norm_num)
  have iIir : Region5.h5_pT.Iir = region5.map Term.I := rfl
  have iJir : Region5.h5_pT.Jir = region5.map Term.J := rfl
  have inir : Region5.h5_pT.nir = region5.map Term.n := rfl
  have iJi0 : Region5.h5_pT.Ji0 = region5Ideal.map Term.J := rfl
  have ini0 : Region5.h5_pT.ni0 = region5Ideal.map Term.n := rfl
  have i1 : Num.ofInt 1 = .fin 1 := by rw [ofInt_eq]; norm_num
  unfold Region5.h5_pT
  rw [iIir, iJir, inir, iJi0, ini0]
  simp only [eτ, i1000, pure_bind]
  obtain ⟨r0, er0, hr0⟩ := loop_float hF region5Ideal (N := 6) rfl (fun t => Term.d t 0 1 1 (1000 / T)) (b5 0 1) (η := 1.2e-12) (S := 36) (δ := 5.1e-11) (fun i s => do
      let s := (F.add s (F.mul (F.mul (F.lit (← idx (region5Ideal.map Term.n) i)) (Num.ofInt (← idx (region5Ideal.map Term.J) i))) (← F.pow τ (Num.ofInt ((← idx (region5Ideal.map Term.J) i) - 1)))))
      pure s) (fun t ht => le_b5 (by norm_num) (by norm_num) t0 t1 1 (by rw [(facts50 t ht).1]; simp)) sum_h50 (by norm_num) (by norm_num) (by
    intro i hi
    obtain ⟨B, m, eB, em, dm⟩ := term_h50 hF hτ t0 t1 (List.getElem_mem hi)
    refine ⟨m, dm, fun s => ?_⟩
    simp only [idx_map _ hi, pure_bind, eB, em]
    rfl)
  rw [er0, pure_bind]
  have hS0 := (abs_sum_le' region5Ideal (fun t => Term.d t 0 1 1 (1000 / T)) (b5 0 1)
    (fun t ht => le_b5 (by norm_num) (by norm_num) t0 t1 1 (by rw [(facts50 t ht).1]; simp))).trans sum_h50
  have bh : ∀ t ∈ region5, |Term.d t 0 1 p (1000 / T)| ≤ b5 0 1 t := fun t ht => le_b5 P0 p1 t0 t1 1 (by have := (facts5 t ht).1; push_cast; omega)
  have bv : ∀ t ∈ region5, |Term.d t 1 0 p (1000 / T)| ≤ b5 1 0 t := fun t ht => le_b5 P0 p1 t0 t1 0 (by have := (facts5 t ht).1; push_cast; omega)
  obtain ⟨r, er, hr⟩ := loop_float hF region5 (N := 5) rfl (fun t => Term.d t 0 1 p (1000 / T)) (b5 0 1) (η := 1.2e-12) (S := 1) (δ := 1.5e-12) (fun i s => do
      let s := (F.add s (F.mul (F.mul (F.mul (F.lit (← idx (region5.map Term.n) i)) (← F.pow a (Num.ofInt (← idx (region5.map Term.I) i)))) (Num.ofInt (← idx (region5.map Term.J) i))) (← F.pow τ (Num.ofInt ((← idx (region5.map Term.J) i) - 1)))))
      pure s) bh sum_h5 (by norm_num) (by norm_num) (by
    intro i hi
    obtain ⟨A, B, m, eA, eB, em, dm⟩ := term_h5 hF ha' hτ p0 p1 t0 t1 (List.getElem_mem hi)
    refine ⟨m, dm, fun s => ?_⟩
    simp only [idx_map _ hi, pure_bind, eA, eB, em]
    rfl)
  rw [er]
  refine ⟨_, rfl, ?_⟩
  have hS := (abs_sum_le' region5 _ _ bh).trans sum_h5
  have n1 := (abs_add_le _ _).trans (add_le_add hS0 hS)
  have m2 := m1.mul hF hτ' (X := 1050) (Y := 0.94) (δ' := 1.6e-10) RT1 aτ (by norm_num)
  have m3 := hr0.add hF hr (M := 36 + 1) (δ' := 5.3e-11) n1 (by norm_num)
  have m4 := m2.mul hF m3 (X := 462) (Y := 36 + 1) (δ' := 4e-8)
    (by rw [show R * T * (1000 / T) = R * 1000 by field_simp]; norm_num [R, abs_le]) n1 (by norm_num)
  have e : gamma5.h p T = R * T * (1000 / T) * ((region5Ideal.map fun t => Term.d t 0 1 1 (1000 / T)).sum + (region5.map fun t => Term.d t 0 1 p (1000 / T)).sum) := by
    rw [show R * T * (1000 / T) = R * 1000 by field_simp]
    simp only [Gamma.h, gamma5, dpoly, div_one]
  rw [e]
  refine ⟨m4, ?_⟩
  rw [show R * T * (1000 / T) = R * 1000 by field_simp, abs_mul]
  exact (mul_le_mul (show |R * 1000| ≤ 462 by norm_num [R, abs_le]) n1 (abs_nonneg _) (by norm_num)).trans (by norm_num)

theorem v5_pT_float (hF : F.Digits15) {a b : Num} {p T : ℝ} (ha : Approx a p (1e-14 * p)) (hb : Approx b T 1e-10)
    (p0 : 0.0006 ≤ p) (p1 : p ≤ 50) (T0 : 1073.15 ≤ T) (T1 : T ≤ 2273.15) :
    ∃ n, Region5.v5_pT F a b = pure n ∧ Approx n (gamma5.v p T) 5e-10 ∧ |gamma5.v p T| ≤ 1800 := by
  have T0' : 0 < T := by norm_num at *; linarith
  have P0 : 0 < p := by norm_num at *; linarith
  have t0 : 0.43 ≤ 1000 / T := by rw [le_div_iff₀ T0']; norm_num at *; linarith
  have t1 : 1000 / T ≤ 0.94 := by rw [div_le_iff₀ T0']; norm_num at *; linarith
  have ha' : Rel a p 1e-14 := by rw [Rel, abs_of_pos P0]; exact ha
  have hb' : Rel b T 9.4e-14 := hb.mono (by rw [abs_of_pos T0']; norm_num at *; linarith)
  have hτ1 : Rng (1000 / T) 1 := .inr (by rw [abs_of_pos (by positivity)]; norm_num at *; constructor <;> linarith)
  obtain ⟨τ, eτ, hτ⟩ := (Rel.exact 1000).div hF hb' T0'.ne' hτ1 (η' := 1e-13) (by norm_num) (by norm_num)
  have aτ : |1000 / T| ≤ 0.94 := by rw [abs_of_pos (by positivity)]; exact t1
  have hτ' : Approx τ (1000 / T) 9.4e-14 := hτ.abs (by norm_num at *; linarith)
  have R0 : 0 < R := by norm_num [R]
  have aR : |R| ≤ 0.462 := by norm_num [R, abs_le]
  have RT1 : |R * T| ≤ 1050 := by rw [abs_of_pos (by positivity)]; norm_num [R] at *; linarith
  have m1 := (litR hF).mul hF hb (X := 0.462) (Y := 2273.15) (δ' := 5e-11) aR (by rw [abs_of_pos T0']; exact T1) (by norm_num)
  have iIir : Region5.v5_pT.Iir = region5.map Term.I := rfl
  have iJir : Region5.v5_pT.Jir = region5.map Term.J := rfl
  have inir : Region5.v5_pT.nir = region5.map Term.n := rfl
  have i1 : Num.ofInt 1 = .fin 1 := by rw [ofInt_eq]; norm_num
  have rip : Rng (1 / p) 4 := .inr (by
    rw [abs_of_pos (by positivity), le_div_iff₀ P0, div_le_iff₀ P0]; norm_num at *; constructor <;> linarith)
  obtain ⟨w, ew, hw⟩ := (Rel.exact 1).div hF ha' P0.ne' rip (η' := 1.3e-14) (by norm_num) (by norm_num)
  have ip : |1 / p| ≤ 1667 := by rw [abs_of_pos (by positivity), div_le_iff₀ P0]; norm_num at *; linarith
  unfold Region5.v5_pT
  rw [iIir, iJir, inir]
  simp only [eτ, i1000, pure_bind, i1, ew]
  have bh : ∀ t ∈ region5, |Term.d t 0 1 p (1000 / T)| ≤ b5 0 1 t := fun t ht => le_b5 P0 p1 t0 t1 1 (by have := (facts5 t ht).1; push_cast; omega)
  have bv : ∀ t ∈ region5, |Term.d t 1 0 p (1000 / T)| ≤ b5 1 0 t := fun t ht => le_b5 P0 p1 t0 t1 0 (by have := (facts5 t ht).1; push_cast; omega)
  obtain ⟨r, er, hr⟩ := loop_float hF region5 (N := 5) rfl (fun t => Term.d t 1 0 p (1000 / T)) (b5 1 0) (η := 1.2e-12) (S := 1) (δ := 1.5e-12) (fun i s => do
      let s := (F.add s (F.mul (F.mul (F.mul (F.lit (← idx (region5.map Term.n) i)) (Num.ofInt (← idx (region5.map Term.I) i))) (← F.pow a (Num.ofInt ((← idx (region5.map Term.I) i) - 1)))) (← F.pow τ (Num.ofInt (← idx (region5.map Term.J) i)))))
      pure s) bv (sum_v5.trans (by norm_num)) (by norm_num) (by norm_num) (by
    intro i hi
    obtain ⟨A, B, m, eA, eB, em, dm⟩ := term_v5 hF ha' hτ p0 p1 t0 t1 (List.getElem_mem hi)
    refine ⟨m, dm, fun s => ?_⟩
    simp only [idx_map _ hi, pure_bind, eA, eB, em]
    rfl)
  rw [er]
  have hS := (abs_sum_le' region5 _ _ bv).trans sum_v5
  have RT2 : 495 ≤ R * T := by norm_num [R] at *; linarith
  have r1 : Rel (F.mul (F.lit Constants.SPECIFIC_GAS_CONSTANT) b) (R * T) 1.02e-13 :=
    m1.mono (by rw [abs_of_pos (by linarith)]; norm_num at *; linarith)
  have rg : Rng (R * T / p) 7 := by
    right
    rw [abs_of_pos (by positivity), le_div_iff₀ P0, div_le_iff₀ P0]
    rw [abs_of_pos (by positivity)] at RT1
    norm_num at *
    constructor <;> linarith
  have rp : Rng p 4 := .inr (by rw [abs_of_pos P0]; norm_num at *; constructor <;> linarith)
  obtain ⟨q, eq, hq⟩ := r1.div hF ha' P0.ne' rg (η' := 1.2e-13) (by norm_num) (by norm_num)
  have r2 := hq.mul hF ha' (rg.mul rp) (η' := 1.4e-13) (by norm_num) (by norm_num)
  rw [show R * T / p * p = R * T by field_simp] at r2
  have n1 := (abs_add_le _ _).trans (add_le_add ip hS)
  have m3 := (hw.abs (δ := 2.2e-11) (by norm_num at *; linarith)).add hF hr (M := 1667 + 0.01) (δ' := 2.6e-11) n1 (by norm_num)
  have m4 := (r2.abs (δ := 1.5e-10) (by norm_num at *; linarith)).mul hF m3 (X := 1050) (Y := 1667 + 0.01) (δ' := 2.9e-7) RT1 n1 (by norm_num)
  obtain ⟨n, en, hn⟩ := m4.div hF (Approx.exact 1000) (m := 1000) (M := 1751) (δ' := 5e-10) (by norm_num [abs_of_pos])
    (by rw [abs_div, abs_mul, div_le_iff₀ (by norm_num [abs_of_pos])]
        refine (mul_le_mul RT1 n1 (abs_nonneg _) (by norm_num)).trans (by norm_num [abs_of_pos])) (by norm_num)
  refine ⟨n, by simp only [pure_bind, eq, en], ?_⟩
  have e : gamma5.v p T = R * T * (1 / p + (region5.map fun t => Term.d t 1 0 p (1000 / T)).sum) / 1000 := by
    simp only [Gamma.v, gamma5, dpoly, div_one, mul_one]
  rw [e]
  refine ⟨hn, ?_⟩
  rw [abs_div, abs_mul, div_le_iff₀ (by norm_num [abs_of_pos])]
  exact (mul_le_mul RT1 n1 (abs_nonneg _) (by norm_num)).trans (by norm_num [abs_of_pos])

theorem u5_pT_float (hF : F.Digits15) {a b : Num} {p T : ℝ} (ha : Approx a p (1e-14 * p)) (hb : Approx b T 1e-10)
    (p0 : 0.0006 ≤ p) (p1 : p ≤ 50) (T0 : 1073.15 ≤ T) (T1 : T ≤ 2273.15) :
    ∃ n, Region5.u5_pT F a b = pure n ∧ Approx n (gamma5.u p T) 3e-6 ∧ |gamma5.u p T| ≤ 4e4 := by
  have T0' : 0 < T := by norm_num at *; linarith
  have P0 : 0 < p := by norm_num at *; linarith
  have t0 : 0.43 ≤ 1000 / T := by rw [le_div_iff₀ T0']; norm_num at *; linarith
  have t1 : 1000 / T ≤ 0.94 := by rw [div_le_iff₀ T0']; norm_num at *; linarith
  have ha' : Rel a p 1e-14 := by rw [Rel, abs_of_pos P0]; exact ha
  have hb' : Rel b T 9.4e-14 := hb.mono (by rw [abs_of_pos T0']; norm_num at *; linarith)
  have hτ1 : Rng (1000 / T) 1 := .inr (by rw [abs_of_pos (by positivity)]; norm_num at *; constructor <;> linarith)
  obtain ⟨τ, eτ, hτ⟩ := (Rel.exact 1000).div hF hb' T0'.ne' hτ1 (η' := 1e-13) (by norm_num) (by norm_num)
  have aτ : |1000 / T| ≤ 0.94 := by rw [abs_of_pos (by positivity)]; exact t1
  have hτ' : Approx τ (1000 / T) 9.4e-14 := hτ.abs (by norm_num at *; linarith)
  have R0 : 0 < R := by norm_num [R]
  have aR : |R| ≤ 0.462 := by norm_num [R, abs_le]
  have RT1 : |R * T| ≤ 1050 := by rw [abs_of_pos (by positivity)]; norm_num [R] at *; linarith
  have m1 := (litR hF).mul hF hb (X := 0.462) (Y := 2273.15) (δ' := 5e-11) aR (by rw [abs_of_pos T0']; exact T1) (by norm_num)
  have iIir : Region5.u5_pT.Iir = region5.map Term.I := rfl
  have iJir : Region5.u5_pT.Jir = region5.map Term.J := rfl
  have inir : Region5.u5_pT.nir = region5.map Term.n := rfl
  have iJi0 : Region5.u5_pT.Ji0 = region5Ideal.map Term.J := rfl
  have ini0 : Region5.u5_pT.ni0 = region5Ideal.map Term.n := rfl
  have i1 : Num.ofInt 1 = .fin 1 := by rw [ofInt_eq]; norm_num
  have rip : Rng (1 / p) 4 := .inr (by
    rw [abs_of_pos (by positivity), le_div_iff₀ P0, div_le_iff₀ P0]; norm_num at *; constructor <;> linarith)
  obtain ⟨w, ew, hw⟩ := (Rel.exact 1).div hF ha' P0.ne' rip (η' := 1.3e-14) (by norm_num) (by norm_num)
  have ip : |1 / p| ≤ 1667 := by rw [abs_of_pos (by positivity), div_le_iff₀ P0]; norm_num at *; linarith
  unfold Region5.u5_pT
  rw [iIir, iJir, inir, iJi0, ini0]
  simp only [eτ, i1000, pure_bind, i1, ew]
  obtain ⟨r0, er0, hr0⟩ := loop_float hF region5Ideal (N := 6) rfl (fun t => Term.d t 0 1 1 (1000 / T)) (b5 0 1) (η := 1.2e-12) (S := 36) (δ := 5.1e-11) (fun i s => do
      let s := (F.add s (F.mul (F.mul (F.lit (← idx (region5Ideal.map Term.n) i)) (Num.ofInt (← idx (region5Ideal.map Term.J) i))) (← F.pow τ (Num.ofInt ((← idx (region5Ideal.map Term.J) i) - 1)))))
      pure s) (fun t ht => le_b5 (by norm_num) (by norm_num) t0 t1 1 (by rw [(facts50 t ht).1]; simp)) sum_h50 (by norm_num) (by norm_num) (by
    intro i hi
    obtain ⟨B, m, eB, em, dm⟩ := term_h50 hF hτ t0 t1 (List.getElem_mem hi)
    refine ⟨m, dm, fun s => ?_⟩
    simp only [idx_map _ hi, pure_bind, eB, em]
    rfl)
  rw [er0, pure_bind]
  have hS0 := (abs_sum_le' region5Ideal (fun t => Term.d t 0 1 1 (1000 / T)) (b5 0 1)
    (fun t ht => le_b5 (by norm_num) (by norm_num) t0 t1 1 (by rw [(facts50 t ht).1]; simp))).trans sum_h50
  have bh : ∀ t ∈ region5, |Term.d t 0 1 p (1000 / T)| ≤ b5 0 1 t := fun t ht => le_b5 P0 p1 t0 t1 1 (by have := (facts5 t ht).1; push_cast; omega)
  have bv : ∀ t ∈ region5, |Term.d t 1 0 p (1000 / T)| ≤ b5 1 0 t := fun t ht => le_b5 P0 p1 t0 t1 0 (by have := (facts5 t ht).1; push_cast; omega)
  obtain ⟨r', r, er, hr', hr⟩ := loop_float2 hF region5 (N := 5) rfl (fun t => Term.d t 1 0 p (1000 / T)) (fun t => Term.d t 0 1 p (1000 / T)) (b5 1 0) (b5 0 1)
    (η := 1.2e-12) (S := 1) (S' := 1) (δ := 1.5e-12) (δ' := 1.5e-12) (fun i (s, s') => do
      let s := (F.add s (F.mul (F.mul (F.mul (F.lit (← idx (region5.map Term.n) i)) (Num.ofInt (← idx (region5.map Term.I) i))) (← F.pow a (Num.ofInt ((← idx (region5.map Term.I) i) - 1)))) (← F.pow τ (Num.ofInt (← idx (region5.map Term.J) i)))))
      let s' := (F.add s' (F.mul (F.mul (F.mul (F.lit (← idx (region5.map Term.n) i)) (← F.pow a (Num.ofInt (← idx (region5.map Term.I) i)))) (Num.ofInt (← idx (region5.map Term.J) i))) (← F.pow τ (Num.ofInt ((← idx (region5.map Term.J) i) - 1)))))
      pure (s, s')) bv (sum_v5.trans (by norm_num)) (by norm_num) (by norm_num) bh sum_h5 (by norm_num) (by norm_num) (by
    intro i hi
    obtain ⟨A, B, m, eA, eB, em, dm⟩ := term_v5 hF ha' hτ p0 p1 t0 t1 (List.getElem_mem hi)
    obtain ⟨A', B', m', eA', eB', em', dm'⟩ := term_h5 hF ha' hτ p0 p1 t0 t1 (List.getElem_mem hi)
    refine ⟨m, m', dm, dm', fun s s' => ?_⟩
    simp only [idx_map _ hi, pure_bind, eA, eB, em, eA', eB', em']
    rfl)
  rw [er]
  refine ⟨_, rfl, ?_⟩
  have hS := (abs_sum_le' region5 _ _ bh).trans sum_h5
  have hS' := (abs_sum_le' region5 _ _ bv).trans sum_v5
  have n1 := (abs_add_le _ _).trans (add_le_add hS0 hS)
  have n2 := (abs_add_le _ _).trans (add_le_add ip hS')
  have m3 := hr0.add hF hr (M := 36 + 1) (δ' := 5.3e-11) n1 (by norm_num)
  have m4 := hτ'.mul hF m3 (X := 0.94) (Y := 36 + 1) (δ' := 5.5e-11) aτ n1 (by norm_num)
  have m5 := (hw.abs (δ := 2.2e-11) (by norm_num at *; linarith)).add hF hr' (M := 1667 + 0.01) (δ' := 2.6e-11) n2 (by norm_num)
  have m6 := (ha'.abs (δ := 5e-13) (by rw [abs_of_pos P0]; norm_num at *; linarith)).mul hF m5 (X := 50) (Y := 1667 + 0.01) (δ' := 2.3e-9)
    (by rw [abs_of_pos P0]; exact p1) n2 (by norm_num)
  have n3 : |1000 / T * ((region5Ideal.map fun t => Term.d t 0 1 1 (1000 / T)).sum + (region5.map fun t => Term.d t 0 1 p (1000 / T)).sum)| ≤ 35 := by
    rw [abs_mul]; exact (mul_le_mul aτ n1 (abs_nonneg _) (by norm_num)).trans (by norm_num)
  have n4 : |p * (1 / p + (region5.map fun t => Term.d t 1 0 p (1000 / T)).sum)| ≤ 2 := by
    rw [mul_add, mul_one_div_cancel P0.ne']
    have h1 : |p * (region5.map fun t => Term.d t 1 0 p (1000 / T)).sum| ≤ 50 * 0.01 := by
      rw [abs_mul, abs_of_pos P0]; exact mul_le_mul p1 hS' (abs_nonneg _) (by norm_num)
    refine (abs_add_le _ _).trans ?_
    norm_num at *; linarith
  have n5 := (abs_sub _ _).trans (add_le_add n3 n4)
  have m7 := m4.sub hF m6 (M := 35 + 2) (δ' := 2.4e-9) n5 (by norm_num)
  have m8 := m1.mul hF m7 (X := 1050) (Y := 35 + 2) (δ' := 3e-6) RT1 n5 (by norm_num)
  have e : gamma5.u p T = R * T * (1000 / T * ((region5Ideal.map fun t => Term.d t 0 1 1 (1000 / T)).sum + (region5.map fun t => Term.d t 0 1 p (1000 / T)).sum) -
      p * (1 / p + (region5.map fun t => Term.d t 1 0 p (1000 / T)).sum)) := by
    simp only [Gamma.u, gamma5, dpoly, div_one]
  rw [e]
  refine ⟨m8, ?_⟩
  rw [abs_mul]
  exact (mul_le_mul RT1 n5 (abs_nonneg _) (by norm_num)).trans (by norm_num)

private theorem sum_g5 : (region5.map (b5 0 0)).sum ≤ 0.4 := by norm_num [region5, b5, ff, abs_of_pos, abs_of_neg]
private theorem sum_g50 : (region5Ideal.map (b5 0 0)).sum ≤ 30 := by norm_num [region5Ideal, b5, ff, abs_of_pos, abs_of_neg]

private theorem term_g5 (hF : F.Digits15) {a b : Num} {p τ : ℝ} (ha : Rel a p 1e-14) (hb : Rel b τ 1e-13) (p0 : 0.0006 ≤ p) (p1 : p ≤ 50)
    (t0 : 0.43 ≤ τ) (t1 : τ ≤ 0.94) {t : Term} (ht : t ∈ region5) :
    ∃ A B m, F.pow a (Num.ofInt t.I) = pure A ∧ F.pow b (Num.ofInt t.J) = pure B ∧
      F.mul (F.mul (F.lit t.n) A) B = .fin m ∧ |m - Term.d t 0 0 p τ| ≤ 1.2e-12 * b5 0 0 t := by
  obtain ⟨A, B, eA, eB, hn, hA, hB, rn, rA, rB, rI, rJ⟩ := factors5 hF ha hb p0 p1 t0 t1 ht 0 0 (by norm_num) (by norm_num)
  rw [sub_zero] at eA hA rA eB hB rB
  obtain ⟨m, em, dm⟩ := (hn.mul hF hA (rn.mul rA) (η' := 5e-14) (by norm_num) (by norm_num)).mul hF hB ((rn.mul rA).mul rB) (η' := 1.2e-12)
    (by norm_num) (by norm_num)
  have := le_b5 (lt_of_lt_of_le (by norm_num) p0) p1 t0 t1 (k := 0) 0 (t := t) (by have := (facts5 t ht).1; push_cast; omega)
  rw [d00, mul_one] at this ⊢
  exact ⟨A, B, m, eA, eB, em, dm.trans (mul_le_mul_of_nonneg_left this (by norm_num))⟩

private theorem term_g50 (hF : F.Digits15) {b : Num} {τ : ℝ} (hb : Rel b τ 1e-13)
    (t0 : 0.43 ≤ τ) (t1 : τ ≤ 0.94) {t : Term} (ht : t ∈ region5Ideal) :
    ∃ B m, F.pow b (Num.ofInt t.J) = pure B ∧
      F.mul (F.lit t.n) B = .fin m ∧ |m - Term.d t 0 0 1 τ| ≤ 1.2e-12 * b5 0 0 t := by
  obtain ⟨h1, h2, h3, h4, h5⟩ := facts50 t ht
  have y0 : 0 < τ := lt_of_lt_of_le (by norm_num) t0
  have ry : Rng (τ ^ t.J) 10 :=
    (Rng.zpow (k := 1) (.inr (by rw [abs_of_pos y0]; norm_num at *; constructor <;> linarith)) y0.ne' _).mono (by omega)
  obtain ⟨B, eB, hB⟩ := hb.zpow hF y0 t.J 9 (η' := 1.1e-12) (by rw [← Int.cast_abs]; exact_mod_cast (by rw [abs_le]; omega)) ry (by norm_num)
    (by norm_num) (by norm_num)
  have n1 : (1 : ℝ) / 10 ^ 2 ≤ |(t.n : ℝ)| := by
    have : ((1 / 10 ^ 2 : ℚ) : ℝ) ≤ ((|t.n| : ℚ) : ℝ) := Rat.cast_le.2 h4
    simpa using this
  have n2 : |(t.n : ℝ)| ≤ 20 := by
    have : ((|t.n| : ℚ) : ℝ) ≤ ((20 : ℚ) : ℝ) := Rat.cast_le.2 h5
    simpa using this
  have rn : Rng t.n 2 := .inr ⟨by simpa using n1, n2.trans (by norm_num)⟩
  have hn : Rel (F.lit t.n) t.n 1e-15 := .lit hF _ rfl (le_trans (by norm_num) n1) (n2.trans (by norm_num))
  obtain ⟨m, em, dm⟩ := hn.mul hF hB (rn.mul ry) (η' := 1.2e-12) (by norm_num) (by norm_num)
  have := le_b5 (p := 1) (by norm_num) (by norm_num) t0 t1 (k := 0) 0 (t := t) (by rw [h1]; simp)
  rw [d00, one_zpow, mul_one, mul_one] at this ⊢
  exact ⟨B, m, eB, em, dm.trans (mul_le_mul_of_nonneg_left this (by norm_num))⟩

/-- fourteen digits after the point of the logarithm -/
def FP.Log14 (F : FP) : Prop :=
  ∀ a : ℝ, 0 < a → |Real.log a| ≤ 10 → ∃ y, F.logr a = .fin y ∧ |y - Real.log a| ≤ 1e-14

theorem FP.Log14.ideal : FP.ideal.Log14 := fun a _ _ => ⟨Real.log a, rfl, by norm_num⟩

/-- binary64 with correctly rounded elementary functions -/
theorem Binary64.log14 : FP.binary64.Log14 := fun a _ h => by
  obtain ⟨y, e, d⟩ := Binary64.round.abs h (by norm_num)
  exact ⟨y, e, d.trans (by norm_num)⟩

theorem s5_pT_float (hF : F.Digits15) (hL : F.Log14) {a b : Num} {p T : ℝ} (ha : Approx a p (1e-14 * p)) (hb : Approx b T 1e-10)
    (p0 : 0.0006 ≤ p) (p1 : p ≤ 50) (T0 : 1073.15 ≤ T) (T1 : T ≤ 2273.15) :
    ∃ n, Region5.s5_pT F a b = pure n ∧ Approx n (gamma5.s p T) 7e-11 ∧ |gamma5.s p T| ≤ 50 := by
  have T0' : 0 < T := by norm_num at *; linarith
  have P0 : 0 < p := by norm_num at *; linarith
  have t0 : 0.43 ≤ 1000 / T := by rw [le_div_iff₀ T0']; norm_num at *; linarith
  have t1 : 1000 / T ≤ 0.94 := by rw [div_le_iff₀ T0']; norm_num at *; linarith
  have ha' : Rel a p 1e-14 := by rw [Rel, abs_of_pos P0]; exact ha
  have hb' : Rel b T 9.4e-14 := hb.mono (by rw [abs_of_pos T0']; norm_num at *; linarith)
  have hτ1 : Rng (1000 / T) 1 := .inr (by rw [abs_of_pos (by positivity)]; norm_num at *; constructor <;> linarith)
  obtain ⟨τ, eτ, hτ⟩ := (Rel.exact 1000).div hF hb' T0'.ne' hτ1 (η' := 1e-13) (by norm_num) (by norm_num)
  have aτ : |1000 / T| ≤ 0.94 := by rw [abs_of_pos (by positivity)]; exact t1
  have hτ' : Approx τ (1000 / T) 9.4e-14 := hτ.abs (by norm_num at *; linarith)
  have aR : |R| ≤ 0.462 := by norm_num [R, abs_le]
  obtain ⟨c, ec, dc, c1⟩ : ∃ c, F.log a = pure (.fin c) ∧ |c - Real.log p| ≤ 2.2e-14 ∧ |Real.log p| ≤ 8 := by
    obtain ⟨z, rfl, dz⟩ := ha
    rw [abs_le] at dz
    have z0 : 0 < z := by norm_num at *; nlinarith
    have l1 : |Real.log p| ≤ 8 := by
      have e8 : (2000 : ℝ) ≤ Real.exp 8 := by
        have : Real.exp 8 = Real.exp (1 / 10) ^ 80 := by rw [← Real.exp_nat_mul]; norm_num
        rw [this]
        exact le_trans (by norm_num) (pow_le_pow_left₀ (by norm_num) (Real.add_one_le_exp (1 / 10)) 80)
      rw [abs_le]
      constructor
      · rw [Real.le_log_iff_exp_le P0, Real.exp_neg]
        exact (inv_anti₀ (by norm_num) e8).trans (by norm_num at *; linarith)
      · rw [Real.log_le_iff_le_exp P0]
        norm_num at *; linarith
    have l2 : |Real.log z - Real.log p| ≤ 1.1e-14 := by
      have h1 := Real.log_le_sub_one_of_pos (div_pos z0 P0)
      have h2 := Real.log_le_sub_one_of_pos (div_pos P0 z0)
      rw [Real.log_div z0.ne' P0.ne'] at h1
      rw [Real.log_div P0.ne' z0.ne'] at h2
      have h3 : z / p ≤ 1 + 1e-14 := by rw [div_le_iff₀ P0]; linarith
      have h4 : p / z ≤ 1 + 1.1e-14 := by rw [div_le_iff₀ z0]; norm_num at *; linarith
      rw [abs_le]
      norm_num at *; constructor <;> linarith
    have l3 : |Real.log z| ≤ 10 := by rw [abs_le] at *; norm_num at *; constructor <;> linarith
    obtain ⟨y, ey, dy⟩ := hL z z0 l3
    refine ⟨y, by rw [FP.log, if_neg (not_le.2 z0), ey], ?_, l1⟩
    have := abs_add_le (y - Real.log z) (Real.log z - Real.log p)
    rw [sub_add_sub_cancel] at this
    norm_num at *; linarith
  have c2 : |c| ≤ 8.1 := by rw [abs_le] at *; norm_num at *; constructor <;> linarith
  have iIir : Region5.s5_pT.Iir = region5.map Term.I := rfl
  have iJir : Region5.s5_pT.Jir = region5.map Term.J := rfl
  have inir : Region5.s5_pT.nir = region5.map Term.n := rfl
  have iJi0 : Region5.s5_pT.Ji0 = region5Ideal.map Term.J := rfl
  have ini0 : Region5.s5_pT.ni0 = region5Ideal.map Term.n := rfl
  have i0 : Num.ofInt 0 = .fin 0 := by rw [ofInt_eq]; norm_num
  have bh0 : ∀ t ∈ region5Ideal, |Term.d t 0 1 1 (1000 / T)| ≤ b5 0 1 t :=
    fun t ht => le_b5 (by norm_num) (by norm_num) t0 t1 1 (by rw [(facts50 t ht).1]; simp)
  have bg0 : ∀ t ∈ region5Ideal, |Term.d t 0 0 1 (1000 / T)| ≤ b5 0 0 t :=
    fun t ht => le_b5 (by norm_num) (by norm_num) t0 t1 0 (by rw [(facts50 t ht).1]; simp)
  have bh : ∀ t ∈ region5, |Term.d t 0 1 p (1000 / T)| ≤ b5 0 1 t := fun t ht => le_b5 P0 p1 t0 t1 1 (by have := (facts5 t ht).1; push_cast; omega)
  have bg : ∀ t ∈ region5, |Term.d t 0 0 p (1000 / T)| ≤ b5 0 0 t := fun t ht => le_b5 P0 p1 t0 t1 0 (by have := (facts5 t ht).1; push_cast; omega)
  unfold Region5.s5_pT
  rw [iIir, iJir, inir, iJi0, ini0]
  simp only [eτ, i1000, pure_bind, ec]
  obtain ⟨r0, q0, er0, hr0, hq0⟩ := loop_float2_from hF region5Ideal (N := 6) rfl (fun t => Term.d t 0 1 1 (1000 / T)) (fun t => Term.d t 0 0 1 (1000 / T)) (b5 0 1) (b5 0 0) 0 c
    (η := 1.2e-12) (S := 36) (S' := 38.1) (δ := 5.1e-11) (δ' := 5.5e-11) (fun i (s, s') => do
      let s := (F.add s (F.mul (F.mul (F.lit (← idx (region5Ideal.map Term.n) i)) (Num.ofInt (← idx (region5Ideal.map Term.J) i))) (← F.pow τ (Num.ofInt ((← idx (region5Ideal.map Term.J) i) - 1)))))
      let s' := (F.add s' (F.mul (F.lit (← idx (region5Ideal.map Term.n) i)) (← F.pow τ (Num.ofInt (← idx (region5Ideal.map Term.J) i)))))
      pure (s, s')) bh0 (by rw [abs_zero, zero_add]; exact sum_h50) (by norm_num) (by norm_num) bg0 ((add_le_add c2 sum_g50).trans (by norm_num)) (by norm_num) (by norm_num) (by
    intro i hi
    obtain ⟨B, m, eB, em, dm⟩ := term_h50 hF hτ t0 t1 (List.getElem_mem hi)
    obtain ⟨B', m', eB', em', dm'⟩ := term_g50 hF hτ t0 t1 (List.getElem_mem hi)
    refine ⟨m, m', dm, dm', fun s s' => ?_⟩
    simp only [idx_map _ hi, pure_bind, eB, em, eB', em']
    rfl)
  rw [i0]
  rw [er0, pure_bind]
  rw [← i0]
  obtain ⟨r', r, er, hr', hr⟩ := loop_float2 hF region5 (N := 5) rfl (fun t => Term.d t 0 0 p (1000 / T)) (fun t => Term.d t 0 1 p (1000 / T)) (b5 0 0) (b5 0 1)
    (η := 1.2e-12) (S := 1) (S' := 1) (δ := 1.5e-12) (δ' := 1.5e-12) (fun i (s, s') => do
      let s := (F.add s (F.mul (F.mul (F.lit (← idx (region5.map Term.n) i)) (← F.pow a (Num.ofInt (← idx (region5.map Term.I) i)))) (← F.pow τ (Num.ofInt (← idx (region5.map Term.J) i)))))
      let s' := (F.add s' (F.mul (F.mul (F.mul (F.lit (← idx (region5.map Term.n) i)) (← F.pow a (Num.ofInt (← idx (region5.map Term.I) i)))) (Num.ofInt (← idx (region5.map Term.J) i))) (← F.pow τ (Num.ofInt ((← idx (region5.map Term.J) i) - 1)))))
      pure (s, s')) bg (sum_g5.trans (by norm_num)) (by norm_num) (by norm_num) bh sum_h5 (by norm_num) (by norm_num) (by
    intro i hi
    obtain ⟨A, B, m, eA, eB, em, dm⟩ := term_g5 hF ha' hτ p0 p1 t0 t1 (List.getElem_mem hi)
    obtain ⟨A', B', m', eA', eB', em', dm'⟩ := term_h5 hF ha' hτ p0 p1 t0 t1 (List.getElem_mem hi)
    refine ⟨m, m', dm, dm', fun s s' => ?_⟩
    have : A' = A := by rw [eA] at eA'; injection eA' with _ o; injection o with o; exact o.symm
    subst this
    simp only [idx_map _ hi, pure_bind, eA, eB, em, eB', em']
    rfl)
  rw [er]
  refine ⟨_, rfl, ?_⟩
  rw [zero_add] at hr0
  have hq : Approx q0 (Real.log p + (region5Ideal.map fun t => Term.d t 0 0 1 (1000 / T)).sum) 5.6e-11 := by
    obtain ⟨w, ew, dw⟩ := hq0
    refine ⟨w, ew, ?_⟩
    rw [abs_le] at *
    norm_num at *; constructor <;> linarith
  have hS0 := (abs_sum_le' region5Ideal _ _ bh0).trans sum_h50
  have hG0 := (abs_add_le _ _).trans (add_le_add c1 ((abs_sum_le' region5Ideal _ _ bg0).trans sum_g50))
  have hS := (abs_sum_le' region5 _ _ bh).trans sum_h5
  have hG := (abs_sum_le' region5 _ _ bg).trans sum_g5
  have n1 := (abs_add_le _ _).trans (add_le_add hS0 hS)
  have n2 := (abs_add_le _ _).trans (add_le_add hG0 hG)
  have m3 := hr0.add hF hr (M := 36 + 1) (δ' := 5.3e-11) n1 (by norm_num)
  have m4 := hτ'.mul hF m3 (X := 0.94) (Y := 36 + 1) (δ' := 5.5e-11) aτ n1 (by norm_num)
  have m5 := hq.add hF hr' (M := 8 + 30 + 0.4) (δ' := 5.8e-11) n2 (by norm_num)
  have n3 : |1000 / T * ((region5Ideal.map fun t => Term.d t 0 1 1 (1000 / T)).sum + (region5.map fun t => Term.d t 0 1 p (1000 / T)).sum)| ≤ 35 := by
    rw [abs_mul]; exact (mul_le_mul aτ n1 (abs_nonneg _) (by norm_num)).trans (by norm_num)
  have n5 := (abs_sub _ _).trans (add_le_add n3 n2)
  have m7 := m4.sub hF m5 (M := 35 + (8 + 30 + 0.4)) (δ' := 1.2e-10) n5 (by norm_num)
  have m8 := (litR hF).mul hF m7 (X := 0.462) (Y := 35 + (8 + 30 + 0.4)) (δ' := 7e-11) aR n5 (by norm_num)
  have e : gamma5.s p T = R * (1000 / T * ((region5Ideal.map fun t => Term.d t 0 1 1 (1000 / T)).sum + (region5.map fun t => Term.d t 0 1 p (1000 / T)).sum) -
      (Real.log p + (region5Ideal.map fun t => Term.d t 0 0 1 (1000 / T)).sum + (region5.map fun t => Term.d t 0 0 p (1000 / T)).sum)) := by
    simp only [Gamma.s, gamma5, dpoly, div_one]
  rw [e]
  refine ⟨m8, ?_⟩
  rw [abs_mul]
  exact (mul_le_mul aR n5 (abs_nonneg _) (by norm_num)).trans (by norm_num)

/-! ## Results in the user's units: an error of `δ` becomes at most `1.1 * δ` -/

theorem fromSI_h_float (hF : F.Digits15) (u : UnitSystem) {n : Num} {z δ : ℝ} (hn : Approx n z δ) (h0 : 1e-10 ≤ δ) (h1 : δ ≤ 1) (hz : |z| ≤ δ * 1e13) :
    ∃ y, UnitConverter.fromSIunit_h F u n = pure (.fin y) ∧ |Quantity.h.si u y - z| ≤ 1.1 * δ := by
  have z0 := abs_nonneg z
  have same : (∃ y, pure n = (pure (.fin y) : Py Num) ∧ |y - z| ≤ 1.1 * δ) := by
    obtain ⟨y, rfl, d⟩ := hn
    exact ⟨y, rfl, by norm_num at *; linarith⟩
  cases u
  · obtain ⟨y, e, d⟩ := same
    refine ⟨y, by simpa [UnitConverter.fromSIunit_h] using e, ?_⟩
    rwa [show Quantity.h.si .bare y = y by norm_num [Quantity.si, Quantity.scale, Quantity.offset]]
  · obtain ⟨y, e, d⟩ := same
    refine ⟨y, by simpa [UnitConverter.fromSIunit_h] using e, ?_⟩
    rwa [show Quantity.h.si .mks y = y by norm_num [Quantity.si, Quantity.scale, Quantity.offset]]
  · have L : Approx (F.lit 2.32600) 2.326 2.6e-15 := .lit hF _ (by norm_num) (M := 2.33) (by norm_num [abs_le]) (by norm_num)
    have hq : |z / 2.326| ≤ |z| * 0.43 := by
      rw [abs_div, abs_of_pos (show (0 : ℝ) < 2.326 by norm_num), div_le_iff₀ (by norm_num)]; norm_num at *; linarith [abs_nonneg z]
    obtain ⟨w, ew, y, rfl, d⟩ := hn.div hF L (m := 2.326) (M := |z| * 0.43) (δ' := 1.09 * δ / 2.326) (by norm_num [abs_of_pos]) hq (by
      have e : (δ + |z| * 0.43 * 2.6e-15) / (2.326 - 2.6e-15) = δ * (1 / (2.326 - 2.6e-15)) + |z| * (0.43 * 2.6e-15 / (2.326 - 2.6e-15)) := by ring
      rw [e, show 1.09 * δ / 2.326 = δ * (1.09 / 2.326) by ring]
      generalize |z| = Z at *
      norm_num at *
      constructor <;> linarith)
    refine ⟨y, by simp [UnitConverter.fromSIunit_h, ew], ?_⟩
    rw [show Quantity.h.si .fls y - z = (y - z / 2.326) * 2.326 by norm_num [Quantity.si, Quantity.scale, Quantity.offset]; ring, abs_mul,
      abs_of_pos (show (0 : ℝ) < 2.326 by norm_num)]
    have d2 := mul_le_mul_of_nonneg_right d (show (0 : ℝ) ≤ 2.326 by norm_num)
    rw [div_mul_cancel₀ _ (by norm_num)] at d2
    norm_num at *; linarith

theorem fromSI_u_float (hF : F.Digits15) (u : UnitSystem) {n : Num} {z δ : ℝ} (hn : Approx n z δ) (h0 : 1e-10 ≤ δ) (h1 : δ ≤ 1) (hz : |z| ≤ δ * 1e13) :
    ∃ y, UnitConverter.fromSIunit_u F u n = pure (.fin y) ∧ |Quantity.u.si u y - z| ≤ 1.1 * δ := by
  have z0 := abs_nonneg z
  have same : (∃ y, pure n = (pure (.fin y) : Py Num) ∧ |y - z| ≤ 1.1 * δ) := by
    obtain ⟨y, rfl, d⟩ := hn
    exact ⟨y, rfl, by norm_num at *; linarith⟩
  cases u
  · obtain ⟨y, e, d⟩ := same
    refine ⟨y, by simpa [UnitConverter.fromSIunit_u] using e, ?_⟩
    rwa [show Quantity.u.si .bare y = y by norm_num [Quantity.si, Quantity.scale, Quantity.offset]]
  · obtain ⟨y, e, d⟩ := same
    refine ⟨y, by simpa [UnitConverter.fromSIunit_u] using e, ?_⟩
    rwa [show Quantity.u.si .mks y = y by norm_num [Quantity.si, Quantity.scale, Quantity.offset]]
  · have L : Approx (F.lit 2.32600) 2.326 2.6e-15 := .lit hF _ (by norm_num) (M := 2.33) (by norm_num [abs_le]) (by norm_num)
    have hq : |z / 2.326| ≤ |z| * 0.43 := by
      rw [abs_div, abs_of_pos (show (0 : ℝ) < 2.326 by norm_num), div_le_iff₀ (by norm_num)]; norm_num at *; linarith [abs_nonneg z]
    obtain ⟨w, ew, y, rfl, d⟩ := hn.div hF L (m := 2.326) (M := |z| * 0.43) (δ' := 1.09 * δ / 2.326) (by norm_num [abs_of_pos]) hq (by
      have e : (δ + |z| * 0.43 * 2.6e-15) / (2.326 - 2.6e-15) = δ * (1 / (2.326 - 2.6e-15)) + |z| * (0.43 * 2.6e-15 / (2.326 - 2.6e-15)) := by ring
      rw [e, show 1.09 * δ / 2.326 = δ * (1.09 / 2.326) by ring]
      generalize |z| = Z at *
      norm_num at *
      constructor <;> linarith)
    refine ⟨y, by simp [UnitConverter.fromSIunit_u, ew], ?_⟩
    rw [show Quantity.u.si .fls y - z = (y - z / 2.326) * 2.326 by norm_num [Quantity.si, Quantity.scale, Quantity.offset]; ring, abs_mul,
      abs_of_pos (show (0 : ℝ) < 2.326 by norm_num)]
    have d2 := mul_le_mul_of_nonneg_right d (show (0 : ℝ) ≤ 2.326 by norm_num)
    rw [div_mul_cancel₀ _ (by norm_num)] at d2
    norm_num at *; linarith

theorem fromSI_v_float (hF : F.Digits15) (u : UnitSystem) {n : Num} {z δ : ℝ} (hn : Approx n z δ) (h0 : 1e-10 ≤ δ) (h1 : δ ≤ 1) (hz : |z| ≤ δ * 1e13) :
    ∃ y, UnitConverter.fromSIunit_v F u n = pure (.fin y) ∧ |Quantity.v.si u y - z| ≤ 1.1 * δ := by
  have z0 := abs_nonneg z
  have same : (∃ y, pure n = (pure (.fin y) : Py Num) ∧ |y - z| ≤ 1.1 * δ) := by
    obtain ⟨y, rfl, d⟩ := hn
    exact ⟨y, rfl, by norm_num at *; linarith⟩
  cases u
  · obtain ⟨y, e, d⟩ := same
    refine ⟨y, by simpa [UnitConverter.fromSIunit_v] using e, ?_⟩
    rwa [show Quantity.v.si .bare y = y by norm_num [Quantity.si, Quantity.scale, Quantity.offset]]
  · obtain ⟨y, e, d⟩ := same
    refine ⟨y, by simpa [UnitConverter.fromSIunit_v] using e, ?_⟩
    rwa [show Quantity.v.si .mks y = y by norm_num [Quantity.si, Quantity.scale, Quantity.offset]]
  · have L : Approx (F.lit 0.0624279606) 0.0624279606 7e-17 := .lit hF _ (by norm_num) (M := 0.063) (by norm_num [abs_le]) (by norm_num)
    have hq : |z / 0.0624279606| ≤ |z| * 16.1 := by
      rw [abs_div, abs_of_pos (show (0 : ℝ) < 0.0624279606 by norm_num), div_le_iff₀ (by norm_num)]; norm_num at *; linarith [abs_nonneg z]
    obtain ⟨w, ew, y, rfl, d⟩ := hn.div hF L (m := 0.0624279606) (M := |z| * 16.1) (δ' := 1.09 * δ / 0.0624279606) (by norm_num [abs_of_pos]) hq (by
      have e : (δ + |z| * 16.1 * 7e-17) / (0.0624279606 - 7e-17) = δ * (1 / (0.0624279606 - 7e-17)) + |z| * (16.1 * 7e-17 / (0.0624279606 - 7e-17)) := by ring
      rw [e, show 1.09 * δ / 0.0624279606 = δ * (1.09 / 0.0624279606) by ring]
      generalize |z| = Z at *
      norm_num at *
      constructor <;> linarith)
    refine ⟨y, by simp [UnitConverter.fromSIunit_v, ew], ?_⟩
    rw [show Quantity.v.si .fls y - z = (y - z / 0.0624279606) * 0.0624279606 by norm_num [Quantity.si, Quantity.scale, Quantity.offset]; ring, abs_mul,
      abs_of_pos (show (0 : ℝ) < 0.0624279606 by norm_num)]
    have d2 := mul_le_mul_of_nonneg_right d (show (0 : ℝ) ≤ 0.0624279606 by norm_num)
    rw [div_mul_cancel₀ _ (by norm_num)] at d2
    norm_num at *; linarith

theorem fromSI_s_float (hF : F.Digits15) (u : UnitSystem) {n : Num} {z δ : ℝ} (hn : Approx n z δ) (h0 : 1e-10 ≤ δ) (h1 : δ ≤ 1) (hz : |z| ≤ δ * 1e13) :
    ∃ y, UnitConverter.fromSIunit_s F u n = pure (.fin y) ∧ |Quantity.s.si u y - z| ≤ 1.1 * δ := by
  have z0 := abs_nonneg z
  have same : (∃ y, pure n = (pure (.fin y) : Py Num) ∧ |y - z| ≤ 1.1 * δ) := by
    obtain ⟨y, rfl, d⟩ := hn
    exact ⟨y, rfl, by norm_num at *; linarith⟩
  cases u
  · obtain ⟨y, e, d⟩ := same
    refine ⟨y, by simpa [UnitConverter.fromSIunit_s] using e, ?_⟩
    rwa [show Quantity.s.si .bare y = y by norm_num [Quantity.si, Quantity.scale, Quantity.offset]]
  · obtain ⟨y, e, d⟩ := same
    refine ⟨y, by simpa [UnitConverter.fromSIunit_s] using e, ?_⟩
    rwa [show Quantity.s.si .mks y = y by norm_num [Quantity.si, Quantity.scale, Quantity.offset]]
  · have L : Approx (F.lit 0.238845896627) 0.238845896627 2.5e-16 := .lit hF _ (by norm_num) (M := 0.24) (by norm_num [abs_le]) (by norm_num)
    obtain ⟨y, e, d⟩ := hn.mul hF L (X := |z|) (Y := 0.238845896627) (δ' := 1.09 * δ * 0.238845896627) le_rfl (by norm_num [abs_le]) (by
      generalize |z| = Z at *
      norm_num at *
      constructor <;> linarith)
    refine ⟨y, by simp [UnitConverter.fromSIunit_s, e], ?_⟩
    rw [show Quantity.s.si .fls y - z = (y - z * 0.238845896627) * (1 / 0.238845896627) by
      norm_num [Quantity.si, Quantity.scale, Quantity.offset]; ring, abs_mul, abs_of_pos (show (0 : ℝ) < 1 / 0.238845896627 by norm_num)]
    norm_num at *; linarith

end PyX
