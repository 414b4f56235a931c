import Verif.Props.Units

/-!
# Exact conversion of finite values, one lemma per converter
-/

namespace PyX

open Classical Py

/-- SI value of `x` user units -/
noncomputable def Quantity.si (q : Quantity) (u : UnitSystem) (x : ℝ) : ℝ := q.scale u * x + q.offset u
/-- user value of `x` SI units -/
noncomputable def Quantity.user (q : Quantity) (u : UnitSystem) (x : ℝ) : ℝ := (x - q.offset u) / q.scale u

theorem Quantity.si_user (q : Quantity) (u : UnitSystem) (x : ℝ) : q.si u (q.user u x) = x := by
  have := (q.scale_pos u).ne'
  simp only [Quantity.si, Quantity.user]; field_simp; ring
theorem Quantity.user_si (q : Quantity) (u : UnitSystem) (x : ℝ) : q.user u (q.si u x) = x := by
  have := (q.scale_pos u).ne'
  simp only [Quantity.si, Quantity.user]; field_simp; ring

theorem Quantity.user_strictMono (q : Quantity) (u : UnitSystem) : StrictMono (q.user u) := fun a b h =>
  div_lt_div_of_pos_right (by linarith) (q.scale_pos u)
theorem Quantity.si_strictMono (q : Quantity) (u : UnitSystem) : StrictMono (q.si u) := fun a b h => by
  have := mul_lt_mul_of_pos_left h (q.scale_pos u)
  simp only [Quantity.si]; linarith

@[simp] theorem Quantity.si_bare (q : Quantity) (x : ℝ) : q.si .bare x = x := by
  cases q <;> simp [Quantity.si, Quantity.scale, Quantity.offset]
@[simp] theorem Quantity.user_bare (q : Quantity) (x : ℝ) : q.user .bare x = x := by
  cases q <;> simp [Quantity.user, Quantity.scale, Quantity.offset]

theorem Quantity.toSI_fin (q : Quantity) (u : UnitSystem) (x : ℝ) :
    q.toSI .ideal u (.fin x) = pure (.fin (q.si u x)) := C01_toSI_value q u x
theorem Quantity.fromSI_fin (q : Quantity) (u : UnitSystem) (x : ℝ) :
    q.fromSI .ideal u (.fin x) = pure (.fin (q.user u x)) := C01_fromSI_value q u x

section
variable (u : UnitSystem) (x : ℝ)
@[si] theorem toSI_p_fin : UnitConverter.toSIunit_p .ideal u (.fin x) = pure (.fin (Quantity.p.si u x)) :=
  Quantity.toSI_fin .p u x
@[si] theorem toSI_T_fin : UnitConverter.toSIunit_T .ideal u (.fin x) = pure (.fin (Quantity.T.si u x)) :=
  Quantity.toSI_fin .T u x
@[si] theorem toSI_h_fin : UnitConverter.toSIunit_h .ideal u (.fin x) = pure (.fin (Quantity.h.si u x)) :=
  Quantity.toSI_fin .h u x
@[si] theorem toSI_v_fin : UnitConverter.toSIunit_v .ideal u (.fin x) = pure (.fin (Quantity.v.si u x)) :=
  Quantity.toSI_fin .v u x
@[si] theorem toSI_s_fin : UnitConverter.toSIunit_s .ideal u (.fin x) = pure (.fin (Quantity.s.si u x)) :=
  Quantity.toSI_fin .s u x
@[si] theorem toSI_u_fin : UnitConverter.toSIunit_u .ideal u (.fin x) = pure (.fin (Quantity.u.si u x)) :=
  Quantity.toSI_fin .u u x
@[si] theorem toSI_Cp_fin : UnitConverter.toSIunit_Cp .ideal u (.fin x) = pure (.fin (Quantity.Cp.si u x)) :=
  Quantity.toSI_fin .Cp u x
@[si] theorem toSI_Cv_fin : UnitConverter.toSIunit_Cv .ideal u (.fin x) = pure (.fin (Quantity.Cv.si u x)) :=
  Quantity.toSI_fin .Cv u x
@[si] theorem toSI_w_fin : UnitConverter.toSIunit_w .ideal u (.fin x) = pure (.fin (Quantity.w.si u x)) :=
  Quantity.toSI_fin .w u x
@[si] theorem toSI_tc_fin : UnitConverter.toSIunit_tc .ideal u (.fin x) = pure (.fin (Quantity.tc.si u x)) :=
  Quantity.toSI_fin .tc u x
@[si] theorem toSI_st_fin : UnitConverter.toSIunit_st .ideal u (.fin x) = pure (.fin (Quantity.st.si u x)) :=
  Quantity.toSI_fin .st u x
@[si] theorem toSI_my_fin : UnitConverter.toSIunit_my .ideal u (.fin x) = pure (.fin (Quantity.my.si u x)) :=
  Quantity.toSI_fin .my u x
@[si] theorem fromSI_p_fin : UnitConverter.fromSIunit_p .ideal u (.fin x) = pure (.fin (Quantity.p.user u x)) :=
  Quantity.fromSI_fin .p u x
@[si] theorem fromSI_T_fin : UnitConverter.fromSIunit_T .ideal u (.fin x) = pure (.fin (Quantity.T.user u x)) :=
  Quantity.fromSI_fin .T u x
@[si] theorem fromSI_h_fin : UnitConverter.fromSIunit_h .ideal u (.fin x) = pure (.fin (Quantity.h.user u x)) :=
  Quantity.fromSI_fin .h u x
@[si] theorem fromSI_v_fin : UnitConverter.fromSIunit_v .ideal u (.fin x) = pure (.fin (Quantity.v.user u x)) :=
  Quantity.fromSI_fin .v u x
@[si] theorem fromSI_s_fin : UnitConverter.fromSIunit_s .ideal u (.fin x) = pure (.fin (Quantity.s.user u x)) :=
  Quantity.fromSI_fin .s u x
@[si] theorem fromSI_u_fin : UnitConverter.fromSIunit_u .ideal u (.fin x) = pure (.fin (Quantity.u.user u x)) :=
  Quantity.fromSI_fin .u u x
@[si] theorem fromSI_Cp_fin : UnitConverter.fromSIunit_Cp .ideal u (.fin x) = pure (.fin (Quantity.Cp.user u x)) :=
  Quantity.fromSI_fin .Cp u x
@[si] theorem fromSI_Cv_fin : UnitConverter.fromSIunit_Cv .ideal u (.fin x) = pure (.fin (Quantity.Cv.user u x)) :=
  Quantity.fromSI_fin .Cv u x
@[si] theorem fromSI_w_fin : UnitConverter.fromSIunit_w .ideal u (.fin x) = pure (.fin (Quantity.w.user u x)) :=
  Quantity.fromSI_fin .w u x
@[si] theorem fromSI_tc_fin : UnitConverter.fromSIunit_tc .ideal u (.fin x) = pure (.fin (Quantity.tc.user u x)) :=
  Quantity.fromSI_fin .tc u x
@[si] theorem fromSI_st_fin : UnitConverter.fromSIunit_st .ideal u (.fin x) = pure (.fin (Quantity.st.user u x)) :=
  Quantity.fromSI_fin .st u x
@[si] theorem fromSI_my_fin : UnitConverter.fromSIunit_my .ideal u (.fin x) = pure (.fin (Quantity.my.user u x)) :=
  Quantity.fromSI_fin .my u x
end

end PyX
