import Verif.Lemmas.Bisect
import Verif.Spec.Units
import Mathlib.Data.Int.Log
import Mathlib.Algebra.Order.Round

/-!
# IEEE binary64

A concrete instance of `FP`: binary64 with round-to-nearest-even, and elementary functions that are
rounded correctly.  It satisfies every assumption on arithmetic used in this development, so none of
the theorems is vacuous.
-/

namespace PyX

open Classical

namespace Binary64

/-- the finite binary64 numbers -/
def floats : Set ℝ :=
  {y | ∃ m e : ℤ, |m| < 2 ^ 53 ∧ -1074 ≤ e ∧ e ≤ 971 ∧ y = m * (2 : ℝ) ^ e}

/-- the floats with an even significand -/
def even : Set ℝ :=
  {y | ∃ m e : ℤ, |2 * m| < 2 ^ 53 ∧ -1074 ≤ e ∧ e ≤ 971 ∧ y = (2 * m : ℤ) * (2 : ℝ) ^ e}

/-- the largest float -/
noncomputable def maxFloat : ℝ := (2 ^ 53 - 1) * (2 : ℝ) ^ (971 : ℤ)

/-- numbers of at least this size overflow -/
noncomputable def limit : ℝ := (2 ^ 54 - 1) * (2 : ℝ) ^ (970 : ℤ)

/-- the float below and the float above -/
noncomputable def below (x : ℝ) : ℝ := sSup {y | y ∈ floats ∧ y ≤ x}
noncomputable def above (x : ℝ) : ℝ := sInf {y | y ∈ floats ∧ x ≤ y}

/-- the nearest float, ties to even -/
noncomputable def nearest (x : ℝ) : ℝ :=
  if x - below x < above x - x then below x
  else if above x - x < x - below x then above x
  else if below x ∈ even then below x else above x

noncomputable def clamp (x : ℝ) : ℝ := max (-maxFloat) (min maxFloat x)

/-- round to nearest -/
noncomputable def rnd (x : ℝ) : Num :=
  if |x| < limit then .fin (nearest (clamp x)) else .inf (decide (x < 0))

theorem finite : floats.Finite := by
  refine Set.Finite.subset (Set.Finite.image2 (fun (m e : ℤ) => (m : ℝ) * (2 : ℝ) ^ e)
    (Set.finite_Icc (-2 ^ 53 : ℤ) (2 ^ 53)) (Set.finite_Icc (-1074 : ℤ) 971)) ?_
  rintro y ⟨m, e, hm, h1, h2, rfl⟩
  rw [abs_lt] at hm
  exact ⟨m, ⟨hm.1.le, hm.2.le⟩, e, ⟨h1, h2⟩, rfl⟩

theorem two_pos (e : ℤ) : (0 : ℝ) < (2 : ℝ) ^ e := zpow_pos (by norm_num) e

theorem max_pos : 0 < maxFloat := mul_pos (by norm_num) (two_pos _)

theorem max_lt_limit : maxFloat < limit := by
  have : (2 : ℝ) ^ (971 : ℤ) = 2 * (2 : ℝ) ^ (970 : ℤ) := by
    rw [show (971 : ℤ) = 1 + 970 by norm_num, zpow_add₀ (by norm_num), zpow_one]
  rw [maxFloat, limit, this, ← mul_assoc]
  exact mul_lt_mul_of_pos_right (by norm_num) (two_pos _)

theorem le_max {y : ℝ} (h : y ∈ floats) : |y| ≤ maxFloat := by
  obtain ⟨m, e, hm, h1, h2, rfl⟩ := h
  rw [abs_mul, abs_of_pos (two_pos e)]
  refine mul_le_mul ?_ (zpow_le_zpow_right₀ (by norm_num) h2) (two_pos _).le (by norm_num)
  have : |m| ≤ 2 ^ 53 - 1 := by omega
  exact_mod_cast this

theorem max_mem : maxFloat ∈ floats :=
  ⟨2 ^ 53 - 1, 971, by norm_num, by norm_num, by norm_num, by rw [maxFloat]; congr 1; norm_num⟩

theorem neg_mem {y : ℝ} (h : y ∈ floats) : -y ∈ floats := by
  obtain ⟨m, e, hm, h1, h2, rfl⟩ := h
  exact ⟨-m, e, by rwa [abs_neg], h1, h2, by push_cast; ring⟩

section
variable {x : ℝ} (hx : |x| ≤ maxFloat)
include hx

theorem below_mem : below x ∈ floats ∧ below x ≤ x := by
  have hne : {y | y ∈ floats ∧ y ≤ x}.Nonempty :=
    ⟨-maxFloat, neg_mem max_mem, (abs_le.1 hx).1⟩
  exact hne.csSup_mem (finite.subset fun _ h => h.1)

theorem above_mem : above x ∈ floats ∧ x ≤ above x := by
  have hne : {y | y ∈ floats ∧ x ≤ y}.Nonempty := ⟨maxFloat, max_mem, (abs_le.1 hx).2⟩
  exact hne.csInf_mem (finite.subset fun _ h => h.1)

omit hx in
theorem le_below {y : ℝ} (hy : y ∈ floats) (h : y ≤ x) : y ≤ below x :=
  le_csSup ((finite.subset fun _ h => h.1).bddAbove) ⟨hy, h⟩

omit hx in
theorem above_le {y : ℝ} (hy : y ∈ floats) (h : x ≤ y) : above x ≤ y :=
  csInf_le ((finite.subset fun _ h => h.1).bddBelow) ⟨hy, h⟩

omit hx in
theorem nearest_or : nearest x = below x ∨ nearest x = above x := by
  unfold nearest
  split_ifs <;> simp

theorem nearest_mem : nearest x ∈ floats := by
  rcases nearest_or (x := x) with h | h <;> rw [h]
  · exact (below_mem hx).1
  · exact (above_mem hx).1

theorem nearest_between : below x ≤ nearest x ∧ nearest x ≤ above x := by
  have h1 := (below_mem hx).2
  have h2 := (above_mem hx).2
  rcases nearest_or (x := x) with h | h <;> rw [h]
  · exact ⟨le_rfl, h1.trans h2⟩
  · exact ⟨h1.trans h2, le_rfl⟩

/-- no float is closer -/
theorem nearest_dist {y : ℝ} (hy : y ∈ floats) : |nearest x - x| ≤ |y - x| := by
  have h1 := (below_mem hx).2
  have h2 := (above_mem hx).2
  have key : min (x - below x) (above x - x) ≤ |y - x| := by
    rcases le_total y x with h | h
    · have := le_below hy h
      rw [abs_of_nonpos (by linarith)]
      exact (min_le_left _ _).trans (by linarith)
    · have := above_le hy h
      rw [abs_of_nonneg (by linarith)]
      exact (min_le_right _ _).trans (by linarith)
  refine le_trans ?_ key
  unfold nearest
  split_ifs with a b c
  · rw [abs_of_nonpos (by linarith), le_min_iff]; constructor <;> linarith
  · rw [abs_of_nonneg (by linarith), le_min_iff]; constructor <;> linarith
  · rw [abs_of_nonpos (by linarith), le_min_iff]; constructor <;> linarith
  · rw [abs_of_nonneg (by linarith), le_min_iff]; constructor <;> linarith

end

theorem nearest_self {y : ℝ} (hy : y ∈ floats) : nearest y = y := by
  have h := nearest_dist (le_max hy) hy
  rw [sub_self, abs_zero] at h
  linarith [abs_eq_zero.1 (le_antisymm h (abs_nonneg _))]

theorem nearest_mono {x y : ℝ} (hx : |x| ≤ maxFloat) (hy : |y| ≤ maxFloat) (h : x ≤ y) :
    nearest x ≤ nearest y := by
  rcases le_or_gt x (below y) with h1 | h1
  · exact ((nearest_between hx).2.trans (above_le (below_mem hy).1 h1)).trans
      (nearest_between hy).1
  · have e1 : below x = below y :=
      le_antisymm (le_below (below_mem hx).1 ((below_mem hx).2.trans h))
        (le_below (below_mem hy).1 h1.le)
    have h2 : y ≤ above x := by
      by_contra h2
      have := le_below (above_mem hx).1 (not_le.1 h2).le
      have := (above_mem hx).2
      linarith
    have e2 : above x = above y :=
      le_antisymm (above_le (above_mem hy).1 (h.trans (above_mem hy).2))
        (above_le (above_mem hx).1 h2)
    have hb := (below_mem hy).2
    have ha := (above_mem hy).2
    unfold nearest
    rw [e1, e2]
    split_ifs <;> linarith

theorem clamp_abs (x : ℝ) : |clamp x| ≤ maxFloat := by
  have := max_pos
  rw [abs_le]
  exact ⟨le_max_left _ _, max_le (by linarith) (min_le_left _ _)⟩

theorem clamp_self {x : ℝ} (h : |x| ≤ maxFloat) : clamp x = x := by
  rw [abs_le] at h
  rw [clamp, min_eq_right h.2, max_eq_right h.1]

theorem clamp_mono {x y : ℝ} (h : x ≤ y) : clamp x ≤ clamp y :=
  max_le_max le_rfl (min_le_min le_rfl h)

theorem rnd_float {y : ℝ} (h : y ∈ floats) : rnd y = .fin y := by
  have := le_max h
  rw [rnd, if_pos (this.trans_lt max_lt_limit), clamp_self this, nearest_self h]

theorem rnd_mem {x y : ℝ} (h : rnd x = .fin y) : y ∈ floats := by
  unfold rnd at h
  split_ifs at h
  cases h
  exact nearest_mem (clamp_abs x)

theorem rnd_fin {x : ℝ} (h : |x| ≤ maxFloat) : rnd x = .fin (nearest x) := by
  rw [rnd, if_pos (h.trans_lt max_lt_limit), clamp_self h]

theorem int_mem (n : ℤ) (h : |n| ≤ 2 ^ 53) : (n : ℝ) ∈ floats := by
  rcases lt_or_eq_of_le h with h | h
  · exact ⟨n, 0, h, by norm_num, by norm_num, by simp⟩
  · rcases abs_choice n with h' | h' <;> rw [h'] at h
    · exact ⟨2 ^ 52, 1, by norm_num, by norm_num, by norm_num, by rw [h]; norm_num⟩
    · have : n = -2 ^ 53 := by omega
      exact ⟨-2 ^ 52, 1, by norm_num, by norm_num, by norm_num, by rw [this]; norm_num⟩

theorem double_mem {y : ℝ} (h : y ∈ floats) : 2 * y ∈ floats ∨ limit ≤ |2 * y| := by
  obtain ⟨m, e, hm, h1, h2, rfl⟩ := h
  rcases lt_or_eq_of_le h2 with h3 | rfl
  · refine Or.inl ⟨m, e + 1, hm, by omega, by omega, ?_⟩
    rw [zpow_add₀ (by norm_num), zpow_one]; ring
  · by_cases hm' : |2 * m| < 2 ^ 53
    · exact Or.inl ⟨2 * m, 971, hm', by norm_num, by norm_num, by push_cast; ring⟩
    · right
      have e1 : (2 : ℝ) ^ (971 : ℤ) = 2 * (2 : ℝ) ^ (970 : ℤ) := by
        rw [show (971 : ℤ) = 1 + 970 by norm_num, zpow_add₀ (by norm_num), zpow_one]
      have h4 : (2 : ℝ) ^ 53 ≤ |2 * (m : ℝ)| := by
        have := not_lt.1 hm'
        exact_mod_cast this
      rw [limit, ← mul_assoc, abs_mul, abs_of_pos (two_pos _), e1, ← mul_assoc]
      refine mul_le_mul_of_nonneg_right ?_ (two_pos _).le
      linarith

/-- a number of ordinary size is rounded with a relative error of at most 2⁻⁵³ -/
theorem nearest_rel {x : ℝ} (h1 : (2 : ℝ) ^ (-1022 : ℤ) ≤ |x|) (h2 : |x| ≤ (2 : ℝ) ^ (1000 : ℤ)) :
    |nearest x - x| ≤ 2 ^ (-53 : ℤ) * |x| := by
  have hx0 : 0 < |x| := (two_pos _).trans_le h1
  have hM : |x| ≤ maxFloat := by
    refine h2.trans ?_
    have : (2 : ℝ) ^ (1000 : ℤ) = (2 : ℝ) ^ (29 : ℤ) * (2 : ℝ) ^ (971 : ℤ) := by
      rw [show (1000 : ℤ) = 29 + 971 by norm_num, zpow_add₀ (by norm_num)]

    rw [this, maxFloat]
    exact mul_le_mul_of_nonneg_right (by norm_num) (two_pos _).le
  set k := Int.log 2 |x| with hk
  have k1 : (2 : ℝ) ^ k ≤ |x| := by
    have := Int.zpow_log_le_self (b := 2) (by norm_num) hx0
    exact_mod_cast this
  have k2 : |x| < (2 : ℝ) ^ (k + 1) := by
    have := Int.lt_zpow_succ_log_self (b := 2) (by norm_num) |x|
    exact_mod_cast this
  have k3 : -1022 < k + 1 := by
    have := h1.trans_lt k2
    exact (zpow_lt_zpow_iff_right₀ (by norm_num)).1 this
  have k4 : k ≤ 1000 := (zpow_le_zpow_iff_right₀ (by norm_num)).1 (k1.trans h2)
  set e := k - 52 with he
  have hpos := two_pos e
  set m : ℤ := round (x / (2 : ℝ) ^ e) with hm
  have hmd : |x / (2 : ℝ) ^ e - m| ≤ 1 / 2 := abs_sub_round _
  have hq : |x / (2 : ℝ) ^ e| < 2 ^ 53 := by
    rw [abs_div, abs_of_pos hpos, div_lt_iff₀ hpos]
    refine k2.trans_le (le_of_eq ?_)
    rw [show k + 1 = 53 + e by omega, zpow_add₀ (by norm_num)]; norm_cast
  have hm1 : |m| ≤ 2 ^ 53 := by
    have h5 : |(m : ℝ)| < 2 ^ 53 + 1 := by
      have := abs_sub_abs_le_abs_sub (m : ℝ) (x / (2 : ℝ) ^ e)
      rw [abs_sub_comm] at this
      linarith
    have : |m| < 2 ^ 53 + 1 := by exact_mod_cast h5
    omega
  have hmem : (m : ℝ) * (2 : ℝ) ^ e ∈ floats := by
    rcases lt_or_eq_of_le hm1 with h | h
    · exact ⟨m, e, h, by omega, by omega, rfl⟩
    · rcases abs_choice m with h' | h' <;> rw [h'] at h
      · refine ⟨2 ^ 52, e + 1, by norm_num, by omega, by omega, ?_⟩
        rw [zpow_add₀ (by norm_num), zpow_one, h]; push_cast; ring
      · refine ⟨-2 ^ 52, e + 1, by norm_num, by omega, by omega, ?_⟩
        have : m = -2 ^ 53 := by omega
        rw [zpow_add₀ (by norm_num), zpow_one, this]; push_cast; ring
  refine (nearest_dist hM hmem).trans ?_
  have h6 : (m : ℝ) * (2 : ℝ) ^ e - x = (m - x / (2 : ℝ) ^ e) * (2 : ℝ) ^ e := by
    field_simp
  rw [h6, abs_mul, abs_of_pos hpos, abs_sub_comm]
  calc |x / (2 : ℝ) ^ e - m| * (2 : ℝ) ^ e ≤ 1 / 2 * (2 : ℝ) ^ e :=
        mul_le_mul_of_nonneg_right hmd hpos.le
    _ = 2 ^ (-53 : ℤ) * (2 : ℝ) ^ k := by
        rw [show e = -52 + k by omega, zpow_add₀ (by norm_num), ← mul_assoc]
        congr 1; norm_num
    _ ≤ 2 ^ (-53 : ℤ) * |x| := mul_le_mul_of_nonneg_left k1 (two_pos _).le

end Binary64

/-- binary64 with correctly rounded elementary functions -/
noncomputable def FP.binary64 : FP where
  rnd := Binary64.rnd
  powr a b := Binary64.rnd (a ^ b)
  expr a := Binary64.rnd (Real.exp a)
  logr a := Binary64.rnd (Real.log a)
  sqrtr a := Binary64.rnd (Real.sqrt a)

namespace Binary64

theorem mono {x y a b : ℝ} (h : x ≤ y) (ha : rnd x = .fin a) (hb : rnd y = .fin b) : a ≤ b := by
  unfold rnd at ha hb
  split_ifs at ha hb
  cases ha; cases hb
  exact nearest_mono (clamp_abs x) (clamp_abs y) (clamp_mono h)

theorem not_nan (x : ℝ) : rnd x ≠ .nan := by
  unfold rnd
  split_ifs <;> simp

theorem four_million : (4000000 : ℝ) ≤ maxFloat := by
  have h1 : (1 : ℝ) ≤ (2 : ℝ) ^ (971 : ℤ) := one_le_zpow₀ (by norm_num) (by norm_num)
  rw [maxFloat]
  calc (4000000 : ℝ) ≤ (2 ^ 53 - 1) * 1 := by norm_num
    _ ≤ _ := mul_le_mul_of_nonneg_left h1 (by norm_num)

/-- binary64 is a finite-precision arithmetic -/
theorem grid : FP.binary64.Grid where
  finite := finite.subset fun y h => rnd_mem h
  idem x y h := rnd_float (rnd_mem h)
  not_nan := not_nan
  mono x y a b h ha hb := mono h ha hb
  double y h := by
    rcases double_mem (rnd_mem h) with h' | h'
    · exact Or.inl (rnd_float h')
    · exact Or.inr ⟨_, by show rnd _ = _; rw [rnd, if_neg (not_lt.2 h')]⟩
  inf_pos x y h hx := by
    change rnd x = _ at hx
    show rnd y = _
    unfold rnd at hx ⊢
    split_ifs at hx with h1
    simp only [Num.inf.injEq, decide_eq_false_iff_not, not_lt] at hx
    have hl : limit ≤ y := by rw [abs_of_nonneg hx] at h1; linarith
    have hy : 0 ≤ y := hx.trans h
    rw [if_neg (by rw [abs_of_nonneg hy]; linarith)]
    simp [hy]
  inf_neg x y h hy := by
    change rnd y = _ at hy
    show rnd x = _
    unfold rnd at hy ⊢
    split_ifs at hy with h1
    simp only [Num.inf.injEq, decide_eq_true_eq] at hy
    have hx : x < 0 := by linarith
    rw [abs_of_neg hy] at h1
    rw [if_neg (by rw [abs_of_neg hx]; linarith)]
    simp [hx]
  int_exact n h := rnd_float (int_mem n h)
  fine x hx := by
    have hM := hx.trans four_million
    refine ⟨nearest x, rnd_fin hM, ?_⟩
    have hr := abs_sub_round (x * 2 ^ 30)
    have hmem : ((round (x * 2 ^ 30) : ℤ) : ℝ) * (2 : ℝ) ^ (-30 : ℤ) ∈ floats := by
      refine ⟨_, -30, ?_, by norm_num, by norm_num, rfl⟩
      have h5 : |((round (x * 2 ^ 30) : ℤ) : ℝ)| < 2 ^ 53 := by
        have := abs_sub_abs_le_abs_sub ((round (x * 2 ^ 30) : ℤ) : ℝ) (x * 2 ^ 30)
        rw [abs_sub_comm] at this
        have h6 : |x * 2 ^ 30| ≤ 4000000 * 2 ^ 30 := by
          rw [abs_mul, abs_of_pos (by norm_num : (0 : ℝ) < 2 ^ 30)]
          exact mul_le_mul_of_nonneg_right hx (by norm_num)
        have h7 : (4000000 * 2 ^ 30 + 1 / 2 : ℝ) < 2 ^ 53 := by norm_num
        have h8 := sub_le_iff_le_add.1 (this.trans hr)
        exact lt_of_le_of_lt (h8.trans (by rw [add_comm]; exact add_le_add_left h6 _)) h7
      exact_mod_cast h5
    refine (nearest_dist hM hmem).trans ?_
    have : ((round (x * 2 ^ 30) : ℤ) : ℝ) * (2 : ℝ) ^ (-30 : ℤ) - x =
        -((x * 2 ^ 30 - (round (x * 2 ^ 30) : ℤ)) * (2 : ℝ) ^ (-30 : ℤ)) := by
      rw [zpow_neg]
      have : (2 : ℝ) ^ (30 : ℤ) = 2 ^ 30 := by norm_cast
      rw [this]; field_simp; ring
    rw [this, abs_neg, abs_mul, abs_of_pos (two_pos _)]
    calc _ ≤ 1 / 2 * (2 : ℝ) ^ (-30 : ℤ) := mul_le_mul_of_nonneg_right hr (two_pos _).le
      _ ≤ 1e-9 := by norm_num

/-- binary64 is sane -/
theorem sane : FP.binary64.Sane where
  int_exact := grid.int_exact
  not_nan := not_nan
  mono := grid.mono
  normal x h1 h2 := by
    have l1 : (2 : ℝ) ^ (-1022 : ℤ) ≤ |x| := by
      refine le_trans ?_ h1
      calc (2 : ℝ) ^ (-1022 : ℤ) ≤ (2 : ℝ) ^ (-350 : ℤ) :=
            zpow_le_zpow_right₀ (by norm_num) (by norm_num)
        _ ≤ 1e-100 := by
          set_option exponentiation.threshold 1100 in norm_num
    have l2 : |x| ≤ (2 : ℝ) ^ (1000 : ℤ) := by
      refine h2.trans ?_
      calc (1e100 : ℝ) ≤ (2 : ℝ) ^ (350 : ℤ) := by
            set_option exponentiation.threshold 1100 in norm_num
        _ ≤ (2 : ℝ) ^ (1000 : ℤ) := zpow_le_zpow_right₀ (by norm_num) (by norm_num)
    have hM : |x| ≤ maxFloat := by
      refine l2.trans ?_
      have : (2 : ℝ) ^ (1000 : ℤ) = (2 : ℝ) ^ (29 : ℤ) * (2 : ℝ) ^ (971 : ℤ) := by
        rw [show (1000 : ℤ) = 29 + 971 by norm_num, zpow_add₀ (by norm_num)]

      rw [this, maxFloat]
      exact mul_le_mul_of_nonneg_right (by norm_num) (two_pos _).le
    have hr := nearest_rel l1 l2
    have h3 : (2 : ℝ) ^ (-53 : ℤ) * |x| < |x| := by
      have : 0 < |x| := (two_pos _).trans_le l1
      have h4 : (2 : ℝ) ^ (-53 : ℤ) < 1 := zpow_lt_one_of_neg₀ (by norm_num) (by norm_num)
      nlinarith
    refine ⟨nearest x, rnd_fin hM, fun hx => ?_, fun hx => ?_⟩
    · rw [abs_of_pos hx] at hr h3
      have := (abs_le.1 hr).1
      linarith
    · rw [abs_of_neg hx] at hr h3
      have := (abs_le.1 hr).2
      linarith

end Binary64

end PyX
