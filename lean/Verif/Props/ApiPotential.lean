import Verif.Props.RegionPT
import Verif.Props.Potential

/-!
# C24: the properties returned by the API at (p, t) come from one potential per region
-/

namespace PyX

open Classical Py Num Spec Spec.IF97 Spec.PT

/-- the Gibbs free energy of the regions 1, 2 and 5 -/
noncomputable def gibbsOf (k : ℤ) : ℝ → ℝ → ℝ := if k = 1 then g1 else if k = 2 then g2 else g5

theorem dom1_of_region {p T : ℝ} (h : InRegion 1 p T) : Dom1 p T := by
  have : Box p T ∧ T ≤ 623.15 := by
    rcases h with ⟨h, _⟩ | ⟨h, _⟩ | ⟨_, h⟩ | ⟨h, _⟩ | ⟨h, _⟩ | ⟨h, _⟩ | ⟨h, _⟩ | ⟨h, _⟩
    iterate 2 exact absurd h (by norm_num)
    · exact ⟨h.1, h.2.1⟩
    all_goals exact absurd h (by norm_num)
  obtain ⟨⟨a, b, c, d⟩, e⟩ := this
  have hT : 0 < T := by linarith
  refine ⟨by linarith, hT.ne', ?_, ?_⟩
  · have : p / 16.53 ≤ 100 / 16.53 := div_le_div_of_nonneg_right d (by norm_num)
    norm_num at this ⊢
    intro h'; linarith
  · have : 1386 / 623.15 ≤ 1386 / T := div_le_div_of_nonneg_left (by norm_num) hT e
    norm_num at this ⊢
    intro h'; linarith

theorem box_of_region2 {p T : ℝ} (h : InRegion 2 p T) : Box p T := by
  rcases h with ⟨h, _⟩ | ⟨h, _⟩ | ⟨h, _⟩ | ⟨_, h⟩ | ⟨_, h⟩ | ⟨h, _⟩ | ⟨h, _⟩ | ⟨h, _⟩
  iterate 3 exact absurd h (by norm_num)
  · exact h.1
  · exact h.1
  all_goals exact absurd h (by norm_num)

theorem hot_of_region5 {p T : ℝ} (h : InRegion 5 p T) : Hot p T := by
  rcases h with ⟨h, _⟩ | ⟨_, h⟩ | ⟨h, _⟩ | ⟨h, _⟩ | ⟨h, _⟩ | ⟨h, _⟩ | ⟨h, _⟩ | ⟨h, _⟩
  · exact absurd h (by norm_num)
  · exact h
  all_goals exact absurd h (by norm_num)

theorem dom2_of_region {p T : ℝ} (h : InRegion 2 p T) : Dom2 p T := by
  obtain ⟨a, b, c, d⟩ := box_of_region2 h
  have hT : 0 < T := by linarith
  refine ⟨by linarith, hT.ne', ?_⟩
  have : 540 / 1073.15 ≤ 540 / T := div_le_div_of_nonneg_left (by norm_num) hT b
  norm_num at this ⊢
  intro h'; linarith

theorem dom5_of_region {p T : ℝ} (h : InRegion 5 p T) : Dom5 p T := by
  obtain ⟨a, b, c, d⟩ := hot_of_region5 h
  exact ⟨by linarith, by linarith⟩

/-- C24: in every unit system the functions of `(p, t)` return, in the regions 1, 2 and 5, the properties
belonging to the Gibbs free energy of the region, converted to user units -/
theorem C24_potential : ∃ v s h e cp : ℤ → ℝ → ℝ → ℝ, ∀ (u : UnitSystem) (k : ℤ) (p t : ℝ), k = 1 ∨ k = 2 ∨ k = 5 →
    InRegion k (Quantity.p.si u p) (Quantity.T.si u t) →
    XSteam.v_pt .ideal u (.fin p) (.fin t) =
      pure (.fin (Quantity.v.user u (v k (Quantity.p.si u p) (Quantity.T.si u t)))) ∧
    XSteam.s_pt .ideal u (.fin p) (.fin t) =
      pure (.fin (Quantity.s.user u (s k (Quantity.p.si u p) (Quantity.T.si u t)))) ∧
    XSteam.h_pt .ideal u (.fin p) (.fin t) =
      pure (.fin (Quantity.h.user u (h k (Quantity.p.si u p) (Quantity.T.si u t)))) ∧
    XSteam.u_pt .ideal u (.fin p) (.fin t) =
      pure (.fin (Quantity.u.user u (e k (Quantity.p.si u p) (Quantity.T.si u t)))) ∧
    XSteam.Cp_pt .ideal u (.fin p) (.fin t) =
      pure (.fin (Quantity.Cp.user u (cp k (Quantity.p.si u p) (Quantity.T.si u t)))) ∧
    Gibbs (gibbsOf k) (v k) (s k) (h k) (e k) (cp k) (Quantity.p.si u p) (Quantity.T.si u t) := by
  obtain ⟨v1, s1, h1, u1, c1, H1⟩ := C20_region1
  obtain ⟨v2, s2, h2, u2, c2, H2⟩ := C21_region2
  obtain ⟨v5, s5, h5, u5, c5, H5⟩ := C22_region5
  refine ⟨fun k => if k = 1 then v1 else if k = 2 then v2 else v5,
    fun k => if k = 1 then s1 else if k = 2 then s2 else s5, fun k => if k = 1 then h1 else if k = 2 then h2 else h5,
    fun k => if k = 1 then u1 else if k = 2 then u2 else u5, fun k => if k = 1 then c1 else if k = 2 then c2 else c5,
    fun u k p t hk hr => ?_⟩
  have hreg := region_pT_pure hr (by rintro rfl; revert hk; norm_num)
  unfold XSteam.v_pt XSteam.s_pt XSteam.h_pt XSteam.u_pt XSteam.Cp_pt
  simp only [si, pure_bind, hreg]
  rcases hk with rfl | rfl | rfl
  · obtain ⟨a, b, c, d, e, f, -⟩ := H1 _ _ (dom1_of_region hr)
    simp only [if_true, a, b, c, d, e, pure_bind, si, true_and, gibbsOf]
    exact f
  · obtain ⟨a, b, c, d, e, f, -⟩ := H2 _ _ (dom2_of_region hr)
    simp only [show ¬ ((2 : ℤ) = 1) by norm_num, if_true, if_false, a, b, c, d, e, pure_bind, si, true_and, gibbsOf]
    exact f
  · obtain ⟨a, b, c, d, e, f, -⟩ := H5 _ _ (dom5_of_region hr)
    simp only [show ¬ ((5 : ℤ) = 1) by norm_num, show ¬ ((5 : ℤ) = 2) by norm_num, show ¬ ((5 : ℤ) = 3) by norm_num,
      show ¬ ((5 : ℤ) = 4) by norm_num, if_true, if_false, a, b, c, d, e, pure_bind, si, true_and, gibbsOf]
    exact f

/-- C24: `h = u + p v` between the numbers returned by the API, after conversion to SI units -/
theorem C24_energy (us : UnitSystem) (k : ℤ) (p t : ℝ) (hk : k = 1 ∨ k = 2 ∨ k = 5)
    (hr : InRegion k (Quantity.p.si us p) (Quantity.T.si us t)) :
    ∃ h u v, XSteam.h_pt .ideal us (.fin p) (.fin t) = pure (.fin h) ∧
      XSteam.u_pt .ideal us (.fin p) (.fin t) = pure (.fin u) ∧
      XSteam.v_pt .ideal us (.fin p) (.fin t) = pure (.fin v) ∧
      Quantity.h.si us h = Quantity.u.si us u + 1000 * Quantity.p.si us p * Quantity.v.si us v := by
  obtain ⟨v, s, h, e, cp, H⟩ := C24_potential
  obtain ⟨a, -, c, d, -, f⟩ := H us k p t hk hr
  refine ⟨_, _, _, c, d, a, ?_⟩
  rw [Quantity.si_user, Quantity.si_user, Quantity.si_user, f.energy]
  ring

/-- at 500 bar and 126.85 °C -/
example : ∃ h u v, XSteam.h_pt .ideal .mks (.fin 500) (.fin 126.85) = pure (.fin h) ∧
    XSteam.u_pt .ideal .mks (.fin 500) (.fin 126.85) = pure (.fin u) ∧
    XSteam.v_pt .ideal .mks (.fin 500) (.fin 126.85) = pure (.fin v) ∧ h = u + 50000 * v := by
  have hp : Quantity.p.si .mks 500 = 50 := by norm_num [Quantity.si, Quantity.scale, Quantity.offset]
  have ht : Quantity.T.si .mks 126.85 = 400 := by norm_num [Quantity.si, Quantity.scale, Quantity.offset]
  obtain ⟨h, u, v, a, b, c, d⟩ := C24_energy .mks 1 500 126.85 (.inl rfl) (by rw [hp, ht]; exact region1_point)
  refine ⟨h, u, v, a, b, c, ?_⟩
  rw [hp] at d
  norm_num [Quantity.si, Quantity.scale, Quantity.offset] at d
  exact d

end PyX
