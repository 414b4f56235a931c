import Verif.Lemmas.GammaDefs
import Verif.Props.Flow

/-!
# The steps of the code computing `cv` and the speed of sound from a Gibbs free energy
-/

namespace PyX

open Classical Py Num Spec Spec.IF97

theorem div_ok {a b : ℝ} {c : Num} (h : (FP.ideal.div (.fin a) (.fin b)).out = .ok c) :
    b ≠ 0 ∧ c = .fin (a / b) := by
  by_cases hb : b = 0
  · rw [div_ideal_eq, if_pos hb] at h
    simp [Py.raise] at h
  · rw [div_ideal hb] at h
    exact ⟨hb, (Outcome.ok.inj h).symm⟩

theorem pow_half {a : ℝ} {c : Num} (h : (FP.ideal.pow (.fin a) (.fin 0.5)).out = .ok c) :
    ∃ w, c = .fin w ∧ 0 ≤ w ∧ w ^ 2 = a := by
  rcases lt_or_ge a 0 with ha | ha
  · exfalso
    have hi : ¬ FP.IsInt (0.5 : ℝ) := by
      rintro ⟨n, hn⟩
      have h2 : ((2 * n : ℤ) : ℝ) = 1 := by push_cast; rw [← hn]; norm_num
      have h3 : (2 * n : ℤ) = 1 := by exact_mod_cast h2
      omega
    have h5 : (0.5 : ℝ) ≠ 0 := by norm_num
    simp [FP.pow, ha.ne, ha, hi, h5, Py.raise] at h
  · rw [pow_ideal_nonneg ha (by norm_num)] at h
    refine ⟨a ^ (0.5 : ℝ), (Outcome.ok.inj h).symm, Real.rpow_nonneg ha _, ?_⟩
    rw [← Real.rpow_natCast, ← Real.rpow_mul ha]
    norm_num

namespace Gamma

theorem sound_of {G : Gamma} {p T π τ : ℝ} {a : Num} (hps : G.ps ≠ 0) (hTs : G.Ts ≠ 0) (hT : T ≠ 0)
    (hπ : p / G.ps = π) (hτ : G.Ts / T = τ)
    (h : (do
      let q ← FP.ideal.div (.fin ((G.gp π τ - τ * G.gpt π τ) ^ 2)) (.fin (τ ^ 2 * G.gtt π τ))
      let r ← FP.ideal.div (.fin (1000 * R * T * G.gp π τ ^ 2)) (FP.ideal.sub q (.fin (G.gpp π τ)))
      FP.ideal.pow r (.fin 0.5) : Py Num).out = .ok a) :
    ∃ w, a = .fin w ∧ SoundSpeed T (G.v p T) (G.vp p T) (G.vT p T) (G.cp p T) w := by
  obtain ⟨l, q, hq, h⟩ := out_bind h
  obtain ⟨hz, rfl⟩ := div_ok (c := q) (by rw [hq])
  obtain ⟨l, r, hr, h⟩ := out_bind h
  rw [sub_ideal] at hr
  obtain ⟨hd, rfl⟩ := div_ok (c := r) (by rw [hr])
  obtain ⟨w, rfl, hw, hw2⟩ := pow_half h
  subst hπ hτ
  exact ⟨w, rfl, sound hps hTs hT (right_ne_zero_of_mul hz) hd hw hw2⟩

/-- the same with numerators and denominators multiplied by `c²` -/
theorem sound_of' {G : Gamma} {p T π τ c : ℝ} {a : Num} (hps : G.ps ≠ 0) (hTs : G.Ts ≠ 0) (hT : T ≠ 0)
    (hπ : p / G.ps = π) (hτ : G.Ts / T = τ) (hc : c ≠ 0)
    (h : (do
      let q ← FP.ideal.div (.fin (c ^ 2 * (G.gp π τ - τ * G.gpt π τ) ^ 2)) (.fin (τ ^ 2 * G.gtt π τ))
      let r ← FP.ideal.div (.fin (1000 * R * T * (c ^ 2 * G.gp π τ ^ 2)))
        (FP.ideal.add (.fin (-(c ^ 2 * G.gpp π τ))) q)
      FP.ideal.pow r (.fin 0.5) : Py Num).out = .ok a) :
    ∃ w, a = .fin w ∧ SoundSpeed T (G.v p T) (G.vp p T) (G.vT p T) (G.cp p T) w := by
  obtain ⟨l, q, hq, h⟩ := out_bind h
  obtain ⟨hz, rfl⟩ := div_ok (c := q) (by rw [hq])
  obtain ⟨l, r, hr, h⟩ := out_bind h
  rw [add_ideal] at hr
  obtain ⟨hd, rfl⟩ := div_ok (c := r) (by rw [hr])
  obtain ⟨w, rfl, hw, hw2⟩ := pow_half h
  subst hπ hτ
  have e : -(c ^ 2 * G.gpp (p / G.ps) (G.Ts / T)) +
      c ^ 2 * (G.gp (p / G.ps) (G.Ts / T) - G.Ts / T * G.gpt (p / G.ps) (G.Ts / T)) ^ 2 /
        ((G.Ts / T) ^ 2 * G.gtt (p / G.ps) (G.Ts / T)) =
      c ^ 2 * ((G.gp (p / G.ps) (G.Ts / T) - G.Ts / T * G.gpt (p / G.ps) (G.Ts / T)) ^ 2 /
        ((G.Ts / T) ^ 2 * G.gtt (p / G.ps) (G.Ts / T)) - G.gpp (p / G.ps) (G.Ts / T)) := by ring
  rw [e] at hd hw2
  refine ⟨w, rfl, sound hps hTs hT (right_ne_zero_of_mul hz) (right_ne_zero_of_mul hd) hw ?_⟩
  rw [hw2, Gamma.w2]
  rw [show 1000 * R * T * (c ^ 2 * G.gp (p / G.ps) (G.Ts / T) ^ 2) =
    c ^ 2 * (1000 * R * T * G.gp (p / G.ps) (G.Ts / T) ^ 2) by ring, mul_div_mul_left _ _ (pow_ne_zero 2 hc)]

theorem cv_of {G : Gamma} {p T π τ : ℝ} {a : Num} (hps : G.ps ≠ 0) (hT : T ≠ 0)
    (hπ : p / G.ps = π) (hτ : G.Ts / T = τ)
    (h : (if G.gpp π τ = 0 then Py.raise .zeroDivision else pure (.fin (G.cv p T)) : Py Num).out = .ok a) :
    ∃ c, a = .fin c ∧ IsochoricHeat T (G.vp p T) (G.vT p T) (G.cp p T) c := by
  by_cases hz : G.gpp π τ = 0
  · rw [if_pos hz] at h
    simp [Py.raise] at h
  · rw [if_neg hz] at h
    subst hπ hτ
    exact ⟨_, (Outcome.ok.inj h).symm, isochoric hps hT hz⟩

end Gamma

end PyX
