import Verif.Lemmas.Univ

/-!
# Bounds along a line, in natural numbers

As in `Verif.Lemmas.Univ`, for `Σ n x^I z^J` with `x` falling and `z` rising at the same rate and both positive; the terms with positive and
with negative coefficients are kept apart.
-/

namespace PyX.Univ

/-- the sum of `n x^I z^J` -/
noncomputable def nsum : List (ℕ × ℕ × ℕ) → ℝ → ℝ → ℝ
  | [], _, _ => 0
  | (n, I, J) :: t, x, z => n * x ^ I * z ^ J + nsum t x z

def val (N K X Z : ℕ) : List (ℕ × ℕ × ℕ) → ℕ
  | [] => 0
  | (n, I, J) :: t => Nat.add (Nat.mul (Nat.mul n (Nat.pow N (Nat.sub K (Nat.add I J)))) (Nat.mul (Nat.pow X I) (Nat.pow Z J))) (val N K X Z t)

def dx (N K X Z : ℕ) : List (ℕ × ℕ × ℕ) → ℕ
  | [] => 0
  | (n, I, J) :: t => Nat.add (Nat.mul (Nat.mul (Nat.mul n I) (Nat.pow N (Nat.sub K (Nat.add I J)))) (Nat.mul (Nat.pow X (Nat.sub I 1)) (Nat.pow Z J)))
      (dx N K X Z t)

def dz (N K X Z : ℕ) : List (ℕ × ℕ × ℕ) → ℕ
  | [] => 0
  | (n, I, J) :: t => Nat.add (Nat.mul (Nat.mul (Nat.mul n J) (Nat.pow N (Nat.sub K (Nat.add I J)))) (Nat.mul (Nat.pow X I) (Nat.pow Z (Nat.sub J 1))))
      (dz N K X Z t)

def ndeg (K : ℕ) : List (ℕ × ℕ × ℕ) → Bool
  | [] => true
  | (_, I, J) :: ts => Nat.ble (I + J) K && ndeg K ts

theorem expand' {u X Z w : ℝ} (hX : 0 ≤ X) (hZ : 0 ≤ Z) (hu : |u| ≤ 1) (hw : 0 ≤ w) (I J : ℕ) :
    |(X - w * u) ^ I * (Z + w * u) ^ J - X ^ I * Z ^ J - w * (X ^ I * (J * Z ^ (J - 1)) - I * X ^ (I - 1) * Z ^ J) * u| ≤
      (X + w) ^ I * (Z + w) ^ J - X ^ I * Z ^ J - w * (I * X ^ (I - 1) * Z ^ J + X ^ I * (J * Z ^ (J - 1))) := by
  have h := expand (X := -X) (Z := Z) hu hw I J
  rw [abs_neg, abs_of_nonneg hX, abs_of_nonneg hZ] at h
  refine (le_of_eq ?_).trans h
  have e1 : -X + w * u = -(X - w * u) := by ring
  have e2 : (I : ℝ) * (-X) ^ (I - 1) = -((-1) ^ I * (I * X ^ (I - 1))) := by
    cases I with
    | zero => simp
    | succ n => simp only [Nat.add_sub_cancel]; rw [neg_pow X n]; ring
  rw [e1, e2, neg_pow (X - w * u), neg_pow X I]
  have e3 : (-1 : ℝ) ^ I * (X - w * u) ^ I * (Z + w * u) ^ J - (-1) ^ I * X ^ I * Z ^ J -
      w * (-((-1) ^ I * (I * X ^ (I - 1))) * Z ^ J + (-1) ^ I * X ^ I * (J * Z ^ (J - 1))) * u =
      (-1) ^ I * ((X - w * u) ^ I * (Z + w * u) ^ J - X ^ I * Z ^ J - w * (X ^ I * (J * Z ^ (J - 1)) - I * X ^ (I - 1) * Z ^ J) * u) := by ring
  rw [e3, abs_mul, abs_pow, abs_neg, abs_one, one_pow, one_mul]

theorem nsum_expand {N K w X Z : ℕ} {u : ℝ} (hN : 0 < N) (hu : |u| ≤ 1) (ts : List (ℕ × ℕ × ℕ)) (hd : ndeg K ts = true) :
    |(N : ℝ) ^ K * nsum ts ((X - w * u) / N) ((Z + w * u) / N) - val N K X Z ts - w * (dz N K X Z ts - dx N K X Z ts) * u| ≤
      val N K (X + w) (Z + w) ts - val N K X Z ts - w * (dx N K X Z ts + dz N K X Z ts) := by
  induction ts with
  | nil => simp [val, dx, dz, nsum]
  | cons t ts ih =>
    obtain ⟨n, I, J⟩ := t
    simp only [ndeg, Bool.and_eq_true] at hd
    have hk := Nat.le_of_ble_eq_true hd.1
    have hN' : (N : ℝ) ≠ 0 := by positivity
    have h := expand' (X := X) (Z := Z) (w := w) (by positivity) (by positivity) hu (by positivity) I J
    have s : (N : ℝ) ^ K = N ^ (K - (I + J)) * N ^ I * N ^ J := by rw [← pow_add, ← pow_add]; congr 1; omega
    set D : ℝ := n * N ^ (K - (I + J)) with hD
    have hD0 : 0 ≤ D := by positivity
    have e : (N : ℝ) ^ K * (n * ((X - w * u) / N) ^ I * ((Z + w * u) / N) ^ J) = D * ((X - w * u) ^ I * (Z + w * u) ^ J) := by
      rw [s, div_pow, div_pow, hD]
      field_simp
    have h2 := mul_le_mul_of_nonneg_left h hD0
    rw [← abs_of_nonneg hD0, ← abs_mul, abs_of_nonneg hD0] at h2
    have h3 := ih hd.2
    simp only [val, dx, dz, nsum, Nat.add_eq, Nat.mul_eq, Nat.pow_eq, Nat.sub_eq]
    rw [mul_add, e]
    have h4 := (abs_add_le _ _).trans (add_le_add h2 h3)
    rw [hD] at h4 ⊢
    push_cast
    refine (le_of_eq ?_).trans (h4.trans (le_of_eq ?_))
    · congr 1; ring
    · ring

/-- `Σ P - Σ M < (Bp - Bm)/Bd` on the segment `[(m - w)/N, (m + w)/N]` -/
def nbelow (P M : List (ℕ × ℕ × ℕ)) (N K a b Bp Bm Bd m w : ℕ) : Bool :=
  let X := Nat.sub a m
  let Z := Nat.sub m b
  let T := Nat.add (Nat.mul Bd (Nat.add (val N K (Nat.add X w) (Nat.add Z w) P) (val N K (Nat.add X w) (Nat.add Z w) M))) (Nat.mul Bm (Nat.pow N K))
  let V := Nat.add (Nat.mul (Nat.mul 2 Bd) (val N K X Z M)) (Nat.mul Bp (Nat.pow N K))
  let c := Nat.mul (Nat.mul 2 Bd) w
  Nat.ble m a && (Nat.ble b m && (Nat.blt T (Nat.add V (Nat.mul c (Nat.add (dx N K X Z P) (dz N K X Z M)))) &&
    Nat.blt T (Nat.add V (Nat.mul c (Nat.add (dz N K X Z P) (dx N K X Z M))))))

theorem nbelow_sound {P M : List (ℕ × ℕ × ℕ)} {N K a b Bp Bm Bd m w : ℕ} (hN : 0 < N) (hP : ndeg K P = true) (hM : ndeg K M = true)
    (h : nbelow P M N K a b Bp Bm Bd m w = true) {y : ℝ} (h0 : ((m : ℝ) - w) ≤ N * y) (h1 : N * y ≤ m + w) :
    Bd * (nsum P (a / N - y) (y - b / N) - nsum M (a / N - y) (y - b / N)) < Bp - (Bm : ℝ) := by
  have hN' : (0 : ℝ) < N := by exact_mod_cast hN
  obtain ⟨u, hu, e⟩ : ∃ u : ℝ, |u| ≤ 1 ∧ N * y = m + w * u := by
    rcases Nat.eq_zero_or_pos w with rfl | hw
    · exact ⟨0, by simp, by simp at *; linarith⟩
    · have hw' : (0 : ℝ) < w := by exact_mod_cast hw
      refine ⟨(N * y - m) / w, ?_, by field_simp; ring⟩
      rw [abs_le]
      constructor
      · rw [le_div_iff₀ hw']; linarith
      · rw [div_le_iff₀ hw']; linarith
  simp only [nbelow, Bool.and_eq_true, Nat.sub_eq, Nat.add_eq, Nat.mul_eq, Nat.pow_eq] at h
  obtain ⟨g1, g2, g3, g4⟩ := h
  replace g1 := Nat.le_of_ble_eq_true g1
  replace g2 := Nat.le_of_ble_eq_true g2
  replace g3 := Nat.lt_of_succ_le (Nat.le_of_ble_eq_true g3)
  replace g4 := Nat.lt_of_succ_le (Nat.le_of_ble_eq_true g4)
  have p1 := nsum_expand (X := a - m) (Z := m - b) (w := w) hN hu P hP
  have p2 := nsum_expand (X := a - m) (Z := m - b) (w := w) hN hu M hM
  have e1 : (((a - m : ℕ) : ℝ) - w * u) / N = a / N - y := by
    rw [Nat.cast_sub g1]
    field_simp
    linarith
  have e2 : (((m - b : ℕ) : ℝ) + w * u) / N = y - b / N := by
    rw [Nat.cast_sub g2]
    field_simp
    linarith
  rw [e1, e2] at p1 p2
  have g3' := (Nat.cast_lt (α := ℝ)).2 g3
  have g4' := (Nat.cast_lt (α := ℝ)).2 g4
  push_cast at g3' g4'
  have p1' := (abs_le.1 p1).2
  have p2' := (abs_le.1 p2).1
  have hNK : (0 : ℝ) < (N : ℝ) ^ K := by positivity
  have hBd : (0 : ℝ) ≤ Bd := by positivity
  generalize nsum P _ _ = A at *
  generalize nsum M _ _ = B at *
  generalize hc : (w : ℝ) * (((dz N K (a - m) (m - b) P : ℕ) : ℝ) + (dx N K (a - m) (m - b) M : ℕ)) = D1 at *
  generalize hc' : (w : ℝ) * (((dx N K (a - m) (m - b) P : ℕ) : ℝ) + (dz N K (a - m) (m - b) M : ℕ)) = D2 at *
  have q : (N : ℝ) ^ K * (A - B) ≤ ((val N K (a - m + w) (m - b + w) P : ℕ) : ℝ) + (val N K (a - m + w) (m - b + w) M : ℕ)
      - 2 * (val N K (a - m) (m - b) M : ℕ) + (D1 - D2) * u - (D1 + D2) := by
    rw [← hc, ← hc']
    linarith
  have q2 : (D1 - D2) * u ≤ |D1 - D2| := (le_abs_self _).trans (by rw [abs_mul]; exact mul_le_of_le_one_right (abs_nonneg _) hu)
  have key : (N : ℝ) ^ K * (Bd * (A - B)) < (N : ℝ) ^ K * (Bp - Bm) := by
    have q3 := mul_le_mul_of_nonneg_left q hBd
    have q4 := mul_le_mul_of_nonneg_left q2 hBd
    rcases abs_cases (D1 - D2) with ⟨z, _⟩ | ⟨z, _⟩
    · rw [z] at q4
      have : 2 * (Bd : ℝ) * w * (((dx N K (a - m) (m - b) P : ℕ) : ℝ) + (dz N K (a - m) (m - b) M : ℕ)) = 2 * Bd * D2 := by rw [← hc']; ring
      linarith
    · rw [z] at q4
      have : 2 * (Bd : ℝ) * w * (((dz N K (a - m) (m - b) P : ℕ) : ℝ) + (dx N K (a - m) (m - b) M : ℕ)) = 2 * Bd * D1 := by rw [← hc]; ring
      linarith
  exact lt_of_mul_lt_mul_left key hNK.le

def ncover (P M : List (ℕ × ℕ × ℕ)) (N K a b Bp Bm Bd : ℕ) : ℕ → List ℕ → ℕ → Bool
  | s, [], e => Nat.beq s e
  | s, w :: l, e => nbelow P M N K a b Bp Bm Bd (Nat.add s w) w && ncover P M N K a b Bp Bm Bd (Nat.add s (Nat.mul 2 w)) l e

theorem ncover_sound {P M : List (ℕ × ℕ × ℕ)} {N K a b Bp Bm Bd : ℕ} (hN : 0 < N) (hP : ndeg K P = true) (hM : ndeg K M = true) {l : List ℕ}
    {s e : ℕ} (h : ncover P M N K a b Bp Bm Bd s l e = true) {y : ℝ} (h0 : (s : ℝ) ≤ N * y) (h1 : N * y < e) :
    Bd * (nsum P (a / N - y) (y - b / N) - nsum M (a / N - y) (y - b / N)) < Bp - (Bm : ℝ) := by
  induction l generalizing s with
  | nil =>
    have := Nat.eq_of_beq_eq_true h
    subst this
    linarith
  | cons w l ih =>
    simp only [ncover, Bool.and_eq_true, Nat.add_eq, Nat.mul_eq] at h
    rcases le_or_gt (N * y) ((s + 2 * w : ℕ) : ℝ) with h2 | h2
    · refine nbelow_sound hN hP hM h.1 ?_ ?_ <;> push_cast at * <;> linarith
    · exact ih h.2 h2.le

end PyX.Univ
