import Verif.Lemmas.FloatPt
import Verif.Props.Stability

/-!
# C84: the rounding error of volume, enthalpy, energy and entropy at (p, t) in regions 1 and 5
-/

namespace PyX

open Classical Py Num Spec Spec.PT Spec.IF97

variable {F : FP}

private theorem det {α : Type} {m : Py α} {a b : α} (h : m = pure a) (h' : m = pure b) : a = b := by
  rw [h] at h'
  injection h' with _ o
  injection o

/-- the pressure, temperature and region that a call at `(p, t)` works with -/
private theorem inputs (hF : F.Digits15) {u : UnitSystem} {p t : ℝ} {k : ℤ} (hk : k ≠ 0) (p0 : 0.0006 ≤ Quantity.p.si u p) (p1 : Quantity.p.si u p ≤ 1000)
    (t0 : 0 ≤ Quantity.T.si u t) (t1 : Quantity.T.si u t ≤ 5000) (hr : InRegion k (Quantity.p.si u p) (Quantity.T.si u t))
    (hc : Clear (Quantity.p.si u p) (Quantity.T.si u t)) :
    ∃ a b, UnitConverter.toSIunit_p F u (.fin p) = pure a ∧ UnitConverter.toSIunit_T F u (.fin t) = pure b ∧
      RegionSelection.region_pT F a b = pure k ∧ Approx a (Quantity.p.si u p) (1e-14 * Quantity.p.si u p) ∧
      Approx b (Quantity.T.si u t) 1e-10 ∧ (Quantity.T.si u t ≤ 1000 → Approx b (Quantity.T.si u t) 1e-11) := by
  obtain ⟨a, ea, ha⟩ := toSI_p_rel hF u (le_trans (by norm_num) p0) p1
  obtain ⟨b, eb, hb⟩ := toSI_T_float_wide hF u t0 t1
  have hb' : Quantity.T.si u t ≤ 1000 → Approx b (Quantity.T.si u t) 1e-11 := fun h => by
    obtain ⟨n, en, hn⟩ := toSI_T_float hF u t0 h
    rw [det eb en]; exact hn
  refine ⟨a, b, ea, eb, ?_, ha, hb, hb'⟩
  rw [region_pT_float hF (ha.mono (by norm_num at *; linarith)) hb hb' hc]
  exact region_pT_pure hr hk

/-- C84: at a state of region 1 that is not next to a border, in every unit system and in every floating point arithmetic with fifteen
digits, the numbers returned differ from the exact values of the same calls by at most 1.7e-9 m³/kg,
6e-4 kJ/kg, 1.5e-3 kJ/kg and 2e-6 kJ/(kg K) -/
theorem C84_region1 (hF : F.Digits15) (u : UnitSystem) (p t : ℝ) (hr : InRegion 1 (Quantity.p.si u p) (Quantity.T.si u t))
    (hc : Clear (Quantity.p.si u p) (Quantity.T.si u t)) :
    (∃ y z, XSteam.v_pt F u (.fin p) (.fin t) = pure (.fin y) ∧ XSteam.v_pt .ideal u (.fin p) (.fin t) = pure (.fin z) ∧
      |Quantity.v.si u y - Quantity.v.si u z| ≤ 1.7e-9) ∧
    (∃ y z, XSteam.h_pt F u (.fin p) (.fin t) = pure (.fin y) ∧ XSteam.h_pt .ideal u (.fin p) (.fin t) = pure (.fin z) ∧
      |Quantity.h.si u y - Quantity.h.si u z| ≤ 6e-4) ∧
    (∃ y z, XSteam.u_pt F u (.fin p) (.fin t) = pure (.fin y) ∧ XSteam.u_pt .ideal u (.fin p) (.fin t) = pure (.fin z) ∧
      |Quantity.u.si u y - Quantity.u.si u z| ≤ 1.5e-3) ∧
    (∃ y z, XSteam.s_pt F u (.fin p) (.fin t) = pure (.fin y) ∧ XSteam.s_pt .ideal u (.fin p) (.fin t) = pure (.fin z) ∧
      |Quantity.s.si u y - Quantity.s.si u z| ≤ 2e-6) := by
  have hb : Box (Quantity.p.si u p) (Quantity.T.si u t) ∧ Quantity.T.si u t ≤ 623.15 := by
    rcases hr with ⟨h, -⟩ | ⟨h, -⟩ | ⟨-, h1, h2, -⟩ | ⟨h, -⟩ | ⟨h, -⟩ | ⟨h, -⟩ | ⟨h, -⟩ | ⟨h, -⟩ <;>
      first | exact absurd h (by norm_num) | exact ⟨h1, h2⟩
  obtain ⟨⟨T0, -, p0, p1⟩, T1⟩ := hb
  replace T0 := T0.le
  replace p0 : 0.0006 ≤ Quantity.p.si u p := le_trans (by norm_num) p0.le
  obtain ⟨a, b, ea, eb, er, ha, -, hb⟩ := inputs hF (by norm_num) p0 (by linarith) (le_trans (by norm_num) T0) (T1.trans (by norm_num)) hr hc
  replace hb := hb (T1.trans (by norm_num))
  refine ⟨?_, ?_, ?_, ?_⟩
  · obtain ⟨n, en, hn, hz⟩ := v1_pT_float hF ha hb p0 p1 T0 T1
    obtain ⟨y, ey, d⟩ := fromSI_v_float hF u hn (by norm_num) (by norm_num) (hz.trans (by norm_num))
    refine ⟨y, _, ?_, (kernels_of_region (.inl rfl) hr).1, ?_⟩
    · simp [XSteam.v_pt, ea, eb, er, en, ey]
    · rw [Quantity.si_user]
      exact d.trans (by norm_num)
  · obtain ⟨n, en, hn, hz⟩ := h1_pT_float hF ha hb p0 p1 T0 T1
    obtain ⟨y, ey, d⟩ := fromSI_h_float hF u hn (by norm_num) (by norm_num) (hz.trans (by norm_num))
    refine ⟨y, _, ?_, (kernels_of_region (.inl rfl) hr).2.1, ?_⟩
    · simp [XSteam.h_pt, ea, eb, er, en, ey]
    · rw [Quantity.si_user]
      exact d.trans (by norm_num)
  · obtain ⟨n, en, hn, hz⟩ := u1_pT_float hF ha hb p0 p1 T0 T1
    obtain ⟨y, ey, d⟩ := fromSI_u_float hF u hn (by norm_num) (by norm_num) (hz.trans (by norm_num))
    refine ⟨y, _, ?_, (kernels_of_region (.inl rfl) hr).2.2.2.1, ?_⟩
    · simp [XSteam.u_pt, ea, eb, er, en, ey]
    · rw [Quantity.si_user]
      exact d.trans (by norm_num)
  · obtain ⟨n, en, hn, hz⟩ := s1_pT_float hF ha hb p0 p1 T0 T1
    obtain ⟨y, ey, d⟩ := fromSI_s_float hF u hn (by norm_num) (by norm_num) (hz.trans (by norm_num))
    refine ⟨y, _, ?_, (kernels_of_region (.inl rfl) hr).2.2.1, ?_⟩
    · simp [XSteam.s_pt, ea, eb, er, en, ey]
    · rw [Quantity.si_user]
      exact d.trans (by norm_num)

/-- C84: at a state of region 5 that is not next to a border, volume, enthalpy and energy differ from the exact values of the same calls by at
most 6e-10 m³/kg, 5e-8 kJ/kg and 3.5e-6 kJ/kg -/
theorem C84_region5 (hF : F.Digits15) (u : UnitSystem) (p t : ℝ) (hr : InRegion 5 (Quantity.p.si u p) (Quantity.T.si u t))
    (hc : Clear (Quantity.p.si u p) (Quantity.T.si u t)) :
    (∃ y z, XSteam.v_pt F u (.fin p) (.fin t) = pure (.fin y) ∧ XSteam.v_pt .ideal u (.fin p) (.fin t) = pure (.fin z) ∧
      |Quantity.v.si u y - Quantity.v.si u z| ≤ 6e-10) ∧
    (∃ y z, XSteam.h_pt F u (.fin p) (.fin t) = pure (.fin y) ∧ XSteam.h_pt .ideal u (.fin p) (.fin t) = pure (.fin z) ∧
      |Quantity.h.si u y - Quantity.h.si u z| ≤ 5e-8) ∧
    (∃ y z, XSteam.u_pt F u (.fin p) (.fin t) = pure (.fin y) ∧ XSteam.u_pt .ideal u (.fin p) (.fin t) = pure (.fin z) ∧
      |Quantity.u.si u y - Quantity.u.si u z| ≤ 3.5e-6) := by
  have hb : Hot (Quantity.p.si u p) (Quantity.T.si u t) := hot_of_region5 hr
  obtain ⟨T0, T1, p0, p1⟩ := hb
  replace T0 := T0.le
  replace T1 := T1.le
  replace p1 := p1.le
  replace p0 : 0.0006 ≤ Quantity.p.si u p := le_trans (by norm_num) p0.le
  obtain ⟨a, b, ea, eb, er, ha, hb, -⟩ := inputs hF (by norm_num) p0 (by linarith) (le_trans (by norm_num) T0) (T1.trans (by norm_num)) hr hc
  refine ⟨?_, ?_, ?_⟩
  · obtain ⟨n, en, hn, hz⟩ := v5_pT_float hF ha hb p0 p1 T0 T1
    obtain ⟨y, ey, d⟩ := fromSI_v_float hF u hn (by norm_num) (by norm_num) (hz.trans (by norm_num))
    refine ⟨y, _, ?_, (kernels_of_region (.inr (.inr rfl)) hr).1, ?_⟩
    · simp [XSteam.v_pt, ea, eb, er, en, ey]
    · rw [Quantity.si_user]
      exact d.trans (by norm_num)
  · obtain ⟨n, en, hn, hz⟩ := h5_pT_float hF ha hb p0 p1 T0 T1
    obtain ⟨y, ey, d⟩ := fromSI_h_float hF u hn (by norm_num) (by norm_num) (hz.trans (by norm_num))
    refine ⟨y, _, ?_, (kernels_of_region (.inr (.inr rfl)) hr).2.1, ?_⟩
    · simp [XSteam.h_pt, ea, eb, er, en, ey]
    · rw [Quantity.si_user]
      exact d.trans (by norm_num)
  · obtain ⟨n, en, hn, hz⟩ := u5_pT_float hF ha hb p0 p1 T0 T1
    obtain ⟨y, ey, d⟩ := fromSI_u_float hF u hn (by norm_num) (by norm_num) (hz.trans (by norm_num))
    refine ⟨y, _, ?_, (kernels_of_region (.inr (.inr rfl)) hr).2.2.2.1, ?_⟩
    · simp [XSteam.u_pt, ea, eb, er, en, ey]
    · rw [Quantity.si_user]
      exact d.trans (by norm_num)

/-- C84: at a state of region 5 that is not next to a border, the entropy differs from the exact value of the same call by at most
2e-10 kJ/(kg K), if moreover the logarithm of the library is right to 1e-14 -/
theorem C84_region5_s (hF : F.Digits15) (hL : F.Log14) (u : UnitSystem) (p t : ℝ) (hr : InRegion 5 (Quantity.p.si u p) (Quantity.T.si u t))
    (hc : Clear (Quantity.p.si u p) (Quantity.T.si u t)) :
    ∃ y z, XSteam.s_pt F u (.fin p) (.fin t) = pure (.fin y) ∧ XSteam.s_pt .ideal u (.fin p) (.fin t) = pure (.fin z) ∧
      |Quantity.s.si u y - Quantity.s.si u z| ≤ 2e-10 := by
  obtain ⟨T0, T1, p0, p1⟩ : Hot (Quantity.p.si u p) (Quantity.T.si u t) := hot_of_region5 hr
  replace p0 : 0.0006 ≤ Quantity.p.si u p := le_trans (by norm_num) p0.le
  obtain ⟨a, b, ea, eb, er, ha, hb, -⟩ := inputs hF (by norm_num) p0 (by linarith) (le_trans (by norm_num) T0.le) (T1.le.trans (by norm_num)) hr hc
  obtain ⟨n, en, hn, hz⟩ := s5_pT_float hF hL ha hb p0 p1.le T0.le T1.le
  obtain ⟨y, ey, d⟩ := fromSI_s_float hF u (hn.mono (δ' := 1e-10) (by norm_num)) (by norm_num) (by norm_num) (hz.trans (by norm_num))
  refine ⟨y, _, ?_, (kernels_of_region (.inr (.inr rfl)) hr).2.2.1, ?_⟩
  · simp [XSteam.s_pt, ea, eb, er, en, ey]
  · rw [Quantity.si_user]
    exact d.trans (by norm_num)

/-! ## Cases -/

private theorem clear_water : Clear 30 400 where
  temperature := by
    simp only [List.mem_cons, List.not_mem_nil, or_false, forall_eq_or_imp, forall_eq]
    norm_num [abs_of_pos, abs_of_neg]
  pressure := by
    simp only [List.mem_cons, List.not_mem_nil, or_false, forall_eq_or_imp, forall_eq]
    norm_num [abs_of_pos, abs_of_neg]
  border h _ := by norm_num at h
  line _ ps h := by
    have := h.1
    have := h.2.1
    have e : |30 - ps| = 30 - ps := abs_of_pos (by norm_num at *; linarith)
    rw [e, abs_of_pos (by norm_num at *; linarith)]
    norm_num at *; linarith

/-- binary64: water at 300 bar and 126.85 °C -/
example : ∃ y z, XSteam.h_pt .binary64 .mks (.fin 300) (.fin 126.85) = pure (.fin y) ∧ XSteam.h_pt .ideal .mks (.fin 300) (.fin 126.85) = pure (.fin z) ∧
    |Quantity.h.si .mks y - Quantity.h.si .mks z| ≤ 6e-4 := by
  have e : Quantity.T.si .mks 126.85 = 400 := by norm_num [Quantity.si, Quantity.scale, Quantity.offset]
  have e' : Quantity.p.si .mks 300 = 30 := by norm_num [Quantity.si, Quantity.scale, Quantity.offset]
  refine (C84_region1 Binary64.digits15 .mks 300 126.85 ?_ ?_).2.1 <;> rw [e, e']
  · obtain ⟨a, b, c⟩ := theta_box (T := 400) (by norm_num) (by norm_num)
    have hs := psat_sat a b c
    refine .inr (.inr (.inl ⟨rfl, by norm_num [Box], by norm_num, ?_, _, hs, by linarith [hs.2.1]⟩))
    rintro ⟨ps, h, d⟩
    rw [abs_lt] at d
    have := h.2.1
    norm_num at *; linarith
  · exact clear_water

private theorem clear_steam : Clear 30 1500 where
  temperature := by
    simp only [List.mem_cons, List.not_mem_nil, or_false, forall_eq_or_imp, forall_eq]
    norm_num [abs_of_pos, abs_of_neg]
  pressure := by
    simp only [List.mem_cons, List.not_mem_nil, or_false, forall_eq_or_imp, forall_eq]
    norm_num [abs_of_pos, abs_of_neg]
  border _ h := by norm_num at h
  line h := by norm_num at h

/-- binary64: steam at 30 MPa and 1500 K -/
example : ∃ y z, XSteam.v_pt .binary64 .bare (.fin 30) (.fin 1500) = pure (.fin y) ∧ XSteam.v_pt .ideal .bare (.fin 30) (.fin 1500) = pure (.fin z) ∧
    |Quantity.v.si .bare y - Quantity.v.si .bare z| ≤ 6e-10 := by
  have e : Quantity.T.si .bare 1500 = 1500 := by norm_num [Quantity.si, Quantity.scale, Quantity.offset]
  have e' : Quantity.p.si .bare 30 = 30 := by norm_num [Quantity.si, Quantity.scale, Quantity.offset]
  refine (C84_region5 Binary64.digits15 .bare 30 1500 ?_ ?_).1 <;> rw [e, e']
  · exact .inr (.inl ⟨rfl, by norm_num [Hot]⟩)
  · exact clear_steam

/-- binary64: the entropy there -/
example : ∃ y z, XSteam.s_pt .binary64 .bare (.fin 30) (.fin 1500) = pure (.fin y) ∧ XSteam.s_pt .ideal .bare (.fin 30) (.fin 1500) = pure (.fin z) ∧
    |Quantity.s.si .bare y - Quantity.s.si .bare z| ≤ 2e-10 := by
  have e : Quantity.T.si .bare 1500 = 1500 := by norm_num [Quantity.si, Quantity.scale, Quantity.offset]
  have e' : Quantity.p.si .bare 30 = 30 := by norm_num [Quantity.si, Quantity.scale, Quantity.offset]
  refine C84_region5_s Binary64.digits15 Binary64.log14 .bare 30 1500 ?_ ?_ <;> rw [e, e']
  · exact .inr (.inl ⟨rfl, by norm_num [Hot]⟩)
  · exact clear_steam

end PyX
