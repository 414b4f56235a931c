-- Transcribed from the Python source by tools/py2lean.py; see the citation at each definition.
import Verif.Model.Transport
import Verif.Model.Units

set_option linter.unusedVariables false

namespace PyX

open Classical

namespace XSteam

/-- pyXSteam/XSteam.py:41-43 -/
noncomputable def specificGasConstant (F : FP) (u : UnitSystem) : Py Num := do
  pure (F.lit Constants.SPECIFIC_GAS_CONSTANT)

/-- pyXSteam/XSteam.py:45-47 -/
noncomputable def criticalTemperatur (F : FP) (u : UnitSystem) : Py Num := do
  UnitConverter.fromSIunit_T F u (F.lit Constants.CRITICAL_TEMPERATURE)

/-- pyXSteam/XSteam.py:49-51 -/
noncomputable def criticalPressure (F : FP) (u : UnitSystem) : Py Num := do
  UnitConverter.fromSIunit_p F u (F.lit Constants.CRITICAL_PRESSURE)

/-- pyXSteam/XSteam.py:53-55 -/
noncomputable def criticalDensity (F : FP) (u : UnitSystem) : Py Num := do
  UnitConverter.fromSIunit_p F u (Num.ofInt Constants.CRITICAL_DENSITY)

/-- pyXSteam/XSteam.py:57-59 -/
noncomputable def triplePointTemperatur (F : FP) (u : UnitSystem) : Py Num := do
  UnitConverter.fromSIunit_T F u (F.lit Constants.TRIPLE_POINT_TEMPERATURE)

/-- pyXSteam/XSteam.py:61-63 -/
noncomputable def triplePointPressure (F : FP) (u : UnitSystem) : Py Num := do
  UnitConverter.fromSIunit_p F u (F.lit Constants.TRIPLE_POINT_PRESSURE)

/-- pyXSteam/XSteam.py:65-67 -/
noncomputable def zeroPointTemperature (F : FP) (u : UnitSystem) : Py Num := do
  UnitConverter.fromSIunit_T F u (F.lit 0.0)

/-- pyXSteam/XSteam.py:71-85 -/
noncomputable def tsat_p (F : FP) (u : UnitSystem) (p : Num) : Py Num := do
  let p ← UnitConverter.toSIunit_p F u p
  if (p > (F.lit 0.000611657)) ∧ (p < (F.lit 22.06395)) then do
    UnitConverter.fromSIunit_T F u (← Region4.T4_p F p)
  else do
    warn "pressure %f out of range"
    pure Num.nan

/-- pyXSteam/XSteam.py:87-102 -/
noncomputable def tsat_s (F : FP) (u : UnitSystem) (s : Num) : Py Num := do
  let s ← UnitConverter.toSIunit_s F u s
  if (s > (Num.neg (F.lit 0.0001545495919))) ∧ (s < (F.lit 9.155759395)) then do
    let ps ← Region4.p4_s F s
    UnitConverter.fromSIunit_T F u (← Region4.T4_p F ps)
  else do
    warn "entropy value %f is out of range"
    pure Num.nan

/-- pyXSteam/XSteam.py:104-134 -/
noncomputable def t_ph (F : FP) (u : UnitSystem) (p : Num) (h : Num) : Py Num := do
  let p ← UnitConverter.toSIunit_p F u p
  let h ← UnitConverter.toSIunit_h F u h
  let region ← RegionSelection.region_ph F p h
  if region = 1 then do
    UnitConverter.fromSIunit_T F u (← Region1.T1_ph F p h)
  else do
    if region = 2 then do
      UnitConverter.fromSIunit_T F u (← Region2.T2_ph F p h)
    else do
      if region = 3 then do
        UnitConverter.fromSIunit_T F u (← Region3.T3_ph F p h)
      else do
        if region = 4 then do
          UnitConverter.fromSIunit_T F u (← Region4.T4_p F p)
        else do
          if region = 5 then do
            UnitConverter.fromSIunit_T F u (← Region5.T5_ph F p h)
          else do
            warn "Region switch t_ph returned unknown value %d for input p %f and h %f"
            pure Num.nan

/-- pyXSteam/XSteam.py:136-167 -/
noncomputable def t_ps (F : FP) (u : UnitSystem) (p : Num) (s : Num) : Py Num := do
  let p ← UnitConverter.toSIunit_p F u p
  let s ← UnitConverter.toSIunit_s F u s
  let region ← RegionSelection.region_ps F p s
  if region = 1 then do
    UnitConverter.fromSIunit_T F u (← Region1.T1_ps F p s)
  else do
    if region = 2 then do
      UnitConverter.fromSIunit_T F u (← Region2.T2_ps F p s)
    else do
      if region = 3 then do
        UnitConverter.fromSIunit_T F u (← Region3.T3_ps F p s)
      else do
        if region = 4 then do
          UnitConverter.fromSIunit_T F u (← Region4.T4_p F p)
        else do
          if region = 5 then do
            UnitConverter.fromSIunit_T F u (← Region5.T5_ps F p s)
          else do
            warn "Region switch t_ps returned unknown value %d for input p %f and s %f"
            pure Num.nan

/-- pyXSteam/XSteam.py:169-207 -/
noncomputable def t_hs (F : FP) (u : UnitSystem) (h : Num) (s : Num) : Py Num := do
  let h ← UnitConverter.toSIunit_h F u h
  let s ← UnitConverter.toSIunit_s F u s
  let region ← RegionSelection.region_hs F h s
  if region = 1 then do
    let p1 ← Region1.p1_hs F h s
    UnitConverter.fromSIunit_T F u (← Region1.T1_ph F p1 h)
  else do
    if region = 2 then do
      let p2 ← Region2.p2_hs F h s
      UnitConverter.fromSIunit_T F u (← Region2.T2_ph F p2 h)
    else do
      if region = 3 then do
        let p3 ← Region3.p3_hs F h s
        UnitConverter.fromSIunit_T F u (← Region3.T3_ph F p3 h)
      else do
        if region = 4 then do
          UnitConverter.fromSIunit_T F u (← Region4.T4_hs F h s)
        else do
          if region = 5 then do
            logError "functions t_hs is not available in region 5 for input h %f and s %f"
            pure Num.nan
          else do
            warn "Region switch t_hs returned unknown value %d for input h %f and s %f"
            pure Num.nan

/-- pyXSteam/XSteam.py:211-225 -/
noncomputable def psat_s (F : FP) (u : UnitSystem) (s : Num) : Py Num := do
  let s ← UnitConverter.toSIunit_s F u s
  if (s > (Num.neg (F.lit 0.0001545495919))) ∧ (s < (F.lit 9.155759395)) then do
    UnitConverter.fromSIunit_p F u (← Region4.p4_s F s)
  else do
    warn "entropy value %f out of range"
    pure Num.nan

/-- pyXSteam/XSteam.py:227-241 -/
noncomputable def psat_t (F : FP) (u : UnitSystem) (t : Num) : Py Num := do
  let T ← UnitConverter.toSIunit_T F u t
  if (T < (F.lit 647.096)) ∧ (T > (F.lit 273.1)) then do
    UnitConverter.fromSIunit_p F u (← Region4.p4_T F T)
  else do
    warn "temperature %f out of range"
    pure Num.nan

/-- pyXSteam/XSteam.py:243-279 -/
noncomputable def p_hs (F : FP) (u : UnitSystem) (h : Num) (s : Num) : Py Num := do
  let h ← UnitConverter.toSIunit_h F u h
  let s ← UnitConverter.toSIunit_s F u s
  let region ← RegionSelection.region_hs F h s
  if region = 1 then do
    UnitConverter.fromSIunit_p F u (← Region1.p1_hs F h s)
  else do
    if region = 2 then do
      UnitConverter.fromSIunit_p F u (← Region2.p2_hs F h s)
    else do
      if region = 3 then do
        UnitConverter.fromSIunit_p F u (← Region3.p3_hs F h s)
      else do
        if region = 4 then do
          let tSat ← Region4.T4_hs F h s
          UnitConverter.fromSIunit_p F u (← Region4.p4_T F tSat)
        else do
          if region = 5 then do
            warn "functions p_hs is not available in region 5 for input h %f and s %f"
            pure Num.nan
          else do
            warn "Region switch p_hs returned unknown value %d for input h %f and s %f"
            pure Num.nan

/-- pyXSteam/XSteam.py:703-745 -/
noncomputable def v_ph (F : FP) (u : UnitSystem) (p : Num) (h : Num) : Py Num := do
  let p ← UnitConverter.toSIunit_p F u p
  let h ← UnitConverter.toSIunit_h F u h
  let region ← RegionSelection.region_ph F p h
  if region = 1 then do
    UnitConverter.fromSIunit_v F u (← Region1.v1_pT F p (← Region1.T1_ph F p h))
  else do
    if region = 2 then do
      UnitConverter.fromSIunit_v F u (← Region2.v2_pT F p (← Region2.T2_ph F p h))
    else do
      if region = 3 then do
        UnitConverter.fromSIunit_v F u (← Region3.v3_ph F p h)
      else do
        if region = 4 then do
          let xs ← Region4.x4_ph F p h
          let (v4v, v4L) ← if p < (F.lit 16.529) then do
            let v4v ← Region2.v2_pT F p (← Region4.T4_p F p)
            let v4L ← Region1.v1_pT F p (← Region4.T4_p F p)
            pure (v4v, v4L)
          else do
            let v4v ← Region3.v3_ph F p (← Region4.h4V_p F p)
            let v4L ← Region3.v3_ph F p (← Region4.h4L_p F p)
            pure (v4v, v4L)
          UnitConverter.fromSIunit_v F u (F.add (F.mul xs v4v) (F.mul (F.sub (Num.ofInt 1) xs) v4L))
        else do
          if region = 5 then do
            let Ts ← Region5.T5_ph F p h
            UnitConverter.fromSIunit_v F u (← Region5.v5_pT F p Ts)
          else do
            warn "Region switch v_ph returned unknown value %d for input p %f and h %f"
            pure Num.nan

/-- one pass of the `while` loop; state: rhos, High_Bound, Low_Bound, ps.
pyXSteam/XSteam.py:305-324 -/
noncomputable def p_hrho.pass (F : FP) (u : UnitSystem) (h : Num) (rho : Num) :
    (Num × Num × Num × Num) → Py (Ctl (Num × Num × Num × Num))
  | (rhos, High_Bound, Low_Bound, ps) => do
    if (Num.fabs (F.sub rho rhos)) > (F.lit 0.0000001) then do
      let last_rhos := rhos
      let rhos ← F.div (Num.ofInt 1) (← XSteam.v_ph F u ps h)
      if Num.feq last_rhos rhos then do
        warn "p_hrho stopped iterating after %d steps because values did not converge for input values h %f and rho %f"
        pure (.brk (rhos, High_Bound, Low_Bound, ps))
      else do
        let (High_Bound, Low_Bound) ← if rhos ≥ rho then do
          let High_Bound := ps
          pure (High_Bound, Low_Bound)
        else do
          let Low_Bound := ps
          pure (High_Bound, Low_Bound)
        let ps ← F.div (F.add Low_Bound High_Bound) (Num.ofInt 2)
        pure (.next (rhos, High_Bound, Low_Bound, ps))
    else do
      pure (.brk (rhos, High_Bound, Low_Bound, ps))

/-- pyXSteam/XSteam.py:281-325 -/
noncomputable def p_hrho (F : FP) (u : UnitSystem) (h : Num) (rho : Num) : Py Num := do
  if rho ≤ (F.lit 0.0) then do
    logError "negative values for density rho not allowed %f"
    Py.raise .value
  else do
    let h ← UnitConverter.toSIunit_h F u h
    let High_Bound ← UnitConverter.fromSIunit_p F u (Num.ofInt 100)
    let Low_Bound ← UnitConverter.fromSIunit_p F u (F.lit 0.000611657)
    let ps ← UnitConverter.fromSIunit_p F u (Num.ofInt 10)
    let rhos ← F.div (Num.ofInt 1) (← XSteam.v_ph F u ps h)
    let (rhos, High_Bound, Low_Bound, ps) ← whileLoop (XSteam.p_hrho.pass F u h rho) (rhos, High_Bound, Low_Bound, ps)
    pure ps

/-- pyXSteam/XSteam.py:329-343 -/
noncomputable def hV_p (F : FP) (u : UnitSystem) (p : Num) : Py Num := do
  let p ← UnitConverter.toSIunit_p F u p
  if (p > (F.lit 0.000611657)) ∧ (p < (F.lit 22.06395)) then do
    UnitConverter.fromSIunit_h F u (← Region4.h4V_p F p)
  else do
    warn "pressure %f out of range"
    pure Num.nan

/-- pyXSteam/XSteam.py:345-359 -/
noncomputable def hL_p (F : FP) (u : UnitSystem) (p : Num) : Py Num := do
  let p ← UnitConverter.toSIunit_p F u p
  if (p > (F.lit 0.000611657)) ∧ (p < (F.lit 22.06395)) then do
    UnitConverter.fromSIunit_h F u (← Region4.h4L_p F p)
  else do
    warn "pressure %f out of range"
    pure Num.nan

/-- pyXSteam/XSteam.py:361-376 -/
noncomputable def hV_t (F : FP) (u : UnitSystem) (t : Num) : Py Num := do
  let T ← UnitConverter.toSIunit_T F u t
  if (T > (F.lit 273.15)) ∧ (T < (F.lit 647.096)) then do
    let p ← Region4.p4_T F T
    UnitConverter.fromSIunit_h F u (← Region4.h4V_p F p)
  else do
    warn "temperature %f out of range"
    pure Num.nan

/-- pyXSteam/XSteam.py:378-393 -/
noncomputable def hL_t (F : FP) (u : UnitSystem) (t : Num) : Py Num := do
  let T ← UnitConverter.toSIunit_T F u t
  if (T > (F.lit 273.15)) ∧ (T < (F.lit 647.096)) then do
    let p ← Region4.p4_T F T
    UnitConverter.fromSIunit_h F u (← Region4.h4L_p F p)
  else do
    warn "temperature %f out of range"
    pure Num.nan

/-- pyXSteam/XSteam.py:395-430 -/
noncomputable def h_pt (F : FP) (u : UnitSystem) (p : Num) (t : Num) : Py Num := do
  let p ← UnitConverter.toSIunit_p F u p
  let T ← UnitConverter.toSIunit_T F u t
  let region ← RegionSelection.region_pT F p T
  if region = 1 then do
    UnitConverter.fromSIunit_h F u (← Region1.h1_pT F p T)
  else do
    if region = 2 then do
      UnitConverter.fromSIunit_h F u (← Region2.h2_pT F p T)
    else do
      if region = 3 then do
        UnitConverter.fromSIunit_h F u (← Region3.h3_pT F p T)
      else do
        if region = 4 then do
          warn "function h_pt is not available in region 4 for input p %f and T %f"
          pure Num.nan
        else do
          if region = 5 then do
            UnitConverter.fromSIunit_h F u (← Region5.h5_pT F p T)
          else do
            warn "Region switch h_pt returned unknown value %d for input p %f and T %f"
            pure Num.nan

/-- pyXSteam/XSteam.py:432-473 -/
noncomputable def h_ps (F : FP) (u : UnitSystem) (p : Num) (s : Num) : Py Num := do
  let p ← UnitConverter.toSIunit_p F u p
  let s ← UnitConverter.toSIunit_s F u s
  let region ← RegionSelection.region_ps F p s
  if region = 1 then do
    UnitConverter.fromSIunit_h F u (← Region1.h1_pT F p (← Region1.T1_ps F p s))
  else do
    if region = 2 then do
      UnitConverter.fromSIunit_h F u (← Region2.h2_pT F p (← Region2.T2_ps F p s))
    else do
      if region = 3 then do
        UnitConverter.fromSIunit_h F u (← Region3.h3_rhoT F (← F.div (Num.ofInt 1) (← Region3.v3_ps F p s)) (← Region3.T3_ps F p s))
      else do
        if region = 4 then do
          let xs ← Region4.x4_ps F p s
          UnitConverter.fromSIunit_h F u (F.add (F.mul xs (← Region4.h4V_p F p)) (F.mul (F.sub (Num.ofInt 1) xs) (← Region4.h4L_p F p)))
        else do
          if region = 5 then do
            UnitConverter.fromSIunit_h F u (← Region5.h5_pT F p (← Region5.T5_ps F p s))
          else do
            warn "Region switch h_ps returned unknown value %d for input p %f and s %f "
            pure Num.nan

/-- pyXSteam/XSteam.py:475-494 -/
noncomputable def h_px (F : FP) (u : UnitSystem) (p : Num) (x : Num) : Py Num := do
  let p ← UnitConverter.toSIunit_p F u p
  let x ← UnitConverter.toSIunit_x F u x
  if (x > (Num.ofInt 1)) ∨ (x < (Num.ofInt 0)) ∨ (p ≥ (F.lit 22.064)) then do
    warn "Vapor fraction %f and/or pressure %f out of range"
    pure Num.nan
  else do
    let hL ← Region4.h4L_p F p
    let hV ← Region4.h4V_p F p
    UnitConverter.fromSIunit_h F u (F.add hL (F.mul x (F.sub hV hL)))

/-- pyXSteam/XSteam.py:496-543 -/
noncomputable def h_prho (F : FP) (u : UnitSystem) (p : Num) (rho : Num) : Py Num := do
  let p ← UnitConverter.toSIunit_p F u p
  let rho ← F.div (Num.ofInt 1) (← UnitConverter.toSIunit_v F u (← F.div (Num.ofInt 1) rho))
  let region ← RegionSelection.region_prho F p rho
  if region = 1 then do
    UnitConverter.fromSIunit_h F u (← Region1.h1_pT F p (← Region1.T1_prho F p rho))
  else do
    if region = 2 then do
      UnitConverter.fromSIunit_h F u (← Region2.h2_pT F p (← Region2.T2_prho F p rho))
    else do
      if region = 3 then do
        UnitConverter.fromSIunit_h F u (← Region3.h3_rhoT F rho (← Region3.T3_prho F p rho))
      else do
        if region = 4 then do
          let (vV, vL) ← if p < (F.lit 16.529) then do
            let vV ← Region2.v2_pT F p (← Region4.T4_p F p)
            let vL ← Region1.v1_pT F p (← Region4.T4_p F p)
            pure (vV, vL)
          else do
            let vV ← Region3.v3_ph F p (← Region4.h4V_p F p)
            let vL ← Region3.v3_ph F p (← Region4.h4L_p F p)
            pure (vV, vL)
          let hV ← Region4.h4V_p F p
          let hL ← Region4.h4L_p F p
          let x ← F.div (F.sub (← F.div (Num.ofInt 1) rho) vL) (F.sub vV vL)
          UnitConverter.fromSIunit_h F u (F.add (F.mul (F.sub (Num.ofInt 1) x) hL) (F.mul x hV))
        else do
          if region = 5 then do
            UnitConverter.fromSIunit_h F u (← Region5.h5_pT F p (← Region5.T5_prho F p rho))
          else do
            warn "Region switch h_prho returned unknown value %d for input p %f and rho %f"
            pure Num.nan

/-- pyXSteam/XSteam.py:545-565 -/
noncomputable def h_tx (F : FP) (u : UnitSystem) (t : Num) (x : Num) : Py Num := do
  let T ← UnitConverter.toSIunit_T F u t
  let x ← UnitConverter.toSIunit_x F u x
  if (x > (Num.ofInt 1)) ∨ (x < (Num.ofInt 0)) ∨ (T ≥ (F.lit 647.096)) then do
    warn "Vapor fraction %f and/or temperature %f out of range"
    pure Num.nan
  else do
    let p ← Region4.p4_T F T
    let hL ← Region4.h4L_p F p
    let hV ← Region4.h4V_p F p
    UnitConverter.fromSIunit_h F u (F.add hL (F.mul x (F.sub hV hL)))

/-- pyXSteam/XSteam.py:569-591 -/
noncomputable def vV_p (F : FP) (u : UnitSystem) (p : Num) : Py Num := do
  let p ← UnitConverter.toSIunit_p F u p
  if (p > (F.lit 0.000611657)) ∧ (p < (F.lit 22.06395)) then do
    if p < (F.lit 16.529) then do
      UnitConverter.fromSIunit_v F u (← Region2.v2_pT F p (← Region4.T4_p F p))
    else do
      UnitConverter.fromSIunit_v F u (← Region3.v3_ph F p (← Region4.h4V_p F p))
  else do
    warn "pressure %f out of range"
    pure Num.nan

/-- pyXSteam/XSteam.py:593-614 -/
noncomputable def vL_p (F : FP) (u : UnitSystem) (p : Num) : Py Num := do
  let p ← UnitConverter.toSIunit_p F u p
  if (p > (F.lit 0.000611657)) ∧ (p < (F.lit 22.06395)) then do
    if p < (F.lit 16.529) then do
      UnitConverter.fromSIunit_v F u (← Region1.v1_pT F p (← Region4.T4_p F p))
    else do
      UnitConverter.fromSIunit_v F u (← Region3.v3_ph F p (← Region4.h4L_p F p))
  else do
    warn "pressure %f out of range"
    pure Num.nan

/-- pyXSteam/XSteam.py:616-638 -/
noncomputable def vV_t (F : FP) (u : UnitSystem) (t : Num) : Py Num := do
  let T ← UnitConverter.toSIunit_T F u t
  if (T > (F.lit 273.15)) ∧ (T < (F.lit 647.096)) then do
    if T ≤ (F.lit 623.15) then do
      UnitConverter.fromSIunit_v F u (← Region2.v2_pT F (← Region4.p4_T F T) T)
    else do
      UnitConverter.fromSIunit_v F u (← Region3.v3_ph F (← Region4.p4_T F T) (← Region4.h4V_p F (← Region4.p4_T F T)))
  else do
    warn "temperature %f out of range"
    pure Num.nan

/-- pyXSteam/XSteam.py:640-662 -/
noncomputable def vL_t (F : FP) (u : UnitSystem) (t : Num) : Py Num := do
  let T ← UnitConverter.toSIunit_T F u t
  if (T > (F.lit 273.15)) ∧ (T < (F.lit 647.096)) then do
    if T ≤ (F.lit 623.15) then do
      UnitConverter.fromSIunit_v F u (← Region1.v1_pT F (← Region4.p4_T F T) T)
    else do
      UnitConverter.fromSIunit_v F u (← Region3.v3_ph F (← Region4.p4_T F T) (← Region4.h4L_p F (← Region4.p4_T F T)))
  else do
    warn "temperature %f out of range"
    pure Num.nan

/-- pyXSteam/XSteam.py:664-701 -/
noncomputable def v_pt (F : FP) (u : UnitSystem) (p : Num) (t : Num) : Py Num := do
  let p ← UnitConverter.toSIunit_p F u p
  let T ← UnitConverter.toSIunit_T F u t
  let region ← RegionSelection.region_pT F p T
  if region = 1 then do
    UnitConverter.fromSIunit_v F u (← Region1.v1_pT F p T)
  else do
    if region = 2 then do
      UnitConverter.fromSIunit_v F u (← Region2.v2_pT F p T)
    else do
      if region = 3 then do
        UnitConverter.fromSIunit_v F u (← Region3.v3_ph F p (← Region3.h3_pT F p T))
      else do
        if region = 4 then do
          warn "function v_pt is not available in region 4 for input p %f and T %f"
          pure Num.nan
        else do
          if region = 5 then do
            UnitConverter.fromSIunit_v F u (← Region5.v5_pT F p T)
          else do
            warn "Region switch v_pt returned unknown value %d for input p %f and T %f"
            pure Num.nan

/-- pyXSteam/XSteam.py:747-789 -/
noncomputable def v_ps (F : FP) (u : UnitSystem) (p : Num) (s : Num) : Py Num := do
  let p ← UnitConverter.toSIunit_p F u p
  let s ← UnitConverter.toSIunit_s F u s
  let region ← RegionSelection.region_ps F p s
  if region = 1 then do
    UnitConverter.fromSIunit_v F u (← Region1.v1_pT F p (← Region1.T1_ps F p s))
  else do
    if region = 2 then do
      UnitConverter.fromSIunit_v F u (← Region2.v2_pT F p (← Region2.T2_ps F p s))
    else do
      if region = 3 then do
        UnitConverter.fromSIunit_v F u (← Region3.v3_ps F p s)
      else do
        if region = 4 then do
          let xs ← Region4.x4_ps F p s
          let (v4v, v4L) ← if p < (F.lit 16.529) then do
            let v4v ← Region2.v2_pT F p (← Region4.T4_p F p)
            let v4L ← Region1.v1_pT F p (← Region4.T4_p F p)
            pure (v4v, v4L)
          else do
            let v4v ← Region3.v3_ph F p (← Region4.h4V_p F p)
            let v4L ← Region3.v3_ph F p (← Region4.h4L_p F p)
            pure (v4v, v4L)
          UnitConverter.fromSIunit_v F u (F.add (F.mul xs v4v) (F.mul (F.sub (Num.ofInt 1) xs) v4L))
        else do
          if region = 5 then do
            let Ts ← Region5.T5_ps F p s
            UnitConverter.fromSIunit_v F u (← Region5.v5_pT F p Ts)
          else do
            warn "Region switch v_ps returned unknown value %d for input p %f and s %f"
            pure Num.nan

/-- pyXSteam/XSteam.py:794-803 -/
noncomputable def rhoV_p (F : FP) (u : UnitSystem) (p : Num) : Py Num := do
  F.div (Num.ofInt 1) (← XSteam.vV_p F u p)

/-- pyXSteam/XSteam.py:805-814 -/
noncomputable def rhoL_p (F : FP) (u : UnitSystem) (p : Num) : Py Num := do
  F.div (Num.ofInt 1) (← XSteam.vL_p F u p)

/-- pyXSteam/XSteam.py:816-825 -/
noncomputable def rhoV_t (F : FP) (u : UnitSystem) (t : Num) : Py Num := do
  F.div (Num.ofInt 1) (← XSteam.vV_t F u t)

/-- pyXSteam/XSteam.py:827-836 -/
noncomputable def rhoL_t (F : FP) (u : UnitSystem) (t : Num) : Py Num := do
  F.div (Num.ofInt 1) (← XSteam.vL_t F u t)

/-- pyXSteam/XSteam.py:838-848 -/
noncomputable def rho_pt (F : FP) (u : UnitSystem) (p : Num) (t : Num) : Py Num := do
  F.div (Num.ofInt 1) (← XSteam.v_pt F u p t)

/-- pyXSteam/XSteam.py:850-860 -/
noncomputable def rho_ph (F : FP) (u : UnitSystem) (p : Num) (h : Num) : Py Num := do
  F.div (Num.ofInt 1) (← XSteam.v_ph F u p h)

/-- pyXSteam/XSteam.py:862-872 -/
noncomputable def rho_ps (F : FP) (u : UnitSystem) (p : Num) (s : Num) : Py Num := do
  F.div (Num.ofInt 1) (← XSteam.v_ps F u p s)

/-- pyXSteam/XSteam.py:876-899 -/
noncomputable def sV_p (F : FP) (u : UnitSystem) (p : Num) : Py Num := do
  let p ← UnitConverter.toSIunit_p F u p
  if (p > (F.lit 0.000611657)) ∧ (p < (F.lit 22.06395)) then do
    if p < (F.lit 16.529) then do
      UnitConverter.fromSIunit_s F u (← Region2.s2_pT F p (← Region4.T4_p F p))
    else do
      UnitConverter.fromSIunit_s F u (← Region3.s3_rhoT F (← F.div (Num.ofInt 1) (← Region3.v3_ph F p (← Region4.h4V_p F p))) (← Region4.T4_p F p))
  else do
    warn "pressure %f out of range"
    pure Num.nan

/-- pyXSteam/XSteam.py:901-924 -/
noncomputable def sL_p (F : FP) (u : UnitSystem) (p : Num) : Py Num := do
  let p ← UnitConverter.toSIunit_p F u p
  if (p > (F.lit 0.000611657)) ∧ (p < (F.lit 22.06395)) then do
    if p < (F.lit 16.529) then do
      UnitConverter.fromSIunit_s F u (← Region1.s1_pT F p (← Region4.T4_p F p))
    else do
      UnitConverter.fromSIunit_s F u (← Region3.s3_rhoT F (← F.div (Num.ofInt 1) (← Region3.v3_ph F p (← Region4.h4L_p F p))) (← Region4.T4_p F p))
  else do
    warn "pressure %f out of range"
    pure Num.nan

/-- pyXSteam/XSteam.py:926-955 -/
noncomputable def sV_t (F : FP) (u : UnitSystem) (t : Num) : Py Num := do
  let T ← UnitConverter.toSIunit_T F u t
  if (T > (F.lit 273.15)) ∧ (T < (F.lit 647.096)) then do
    if T ≤ (F.lit 623.15) then do
      UnitConverter.fromSIunit_s F u (← Region2.s2_pT F (← Region4.p4_T F T) T)
    else do
      UnitConverter.fromSIunit_s F u (← Region3.s3_rhoT F (← F.div (Num.ofInt 1) (← Region3.v3_ph F (← Region4.p4_T F T) (← Region4.h4V_p F (← Region4.p4_T F T)))) T)
  else do
    warn "temperature %f out of range"
    pure Num.nan

/-- pyXSteam/XSteam.py:957-986 -/
noncomputable def sL_t (F : FP) (u : UnitSystem) (t : Num) : Py Num := do
  let T ← UnitConverter.toSIunit_T F u t
  if (T > (F.lit 273.15)) ∧ (T < (F.lit 647.096)) then do
    if T ≤ (F.lit 623.15) then do
      UnitConverter.fromSIunit_s F u (← Region1.s1_pT F (← Region4.p4_T F T) T)
    else do
      UnitConverter.fromSIunit_s F u (← Region3.s3_rhoT F (← F.div (Num.ofInt 1) (← Region3.v3_ph F (← Region4.p4_T F T) (← Region4.h4L_p F (← Region4.p4_T F T)))) T)
  else do
    warn "temperature %f out of range"
    pure Num.nan

/-- pyXSteam/XSteam.py:988-1023 -/
noncomputable def s_pt (F : FP) (u : UnitSystem) (p : Num) (t : Num) : Py Num := do
  let p ← UnitConverter.toSIunit_p F u p
  let T ← UnitConverter.toSIunit_T F u t
  let region ← RegionSelection.region_pT F p T
  if region = 1 then do
    UnitConverter.fromSIunit_s F u (← Region1.s1_pT F p T)
  else do
    if region = 2 then do
      UnitConverter.fromSIunit_s F u (← Region2.s2_pT F p T)
    else do
      if region = 3 then do
        let hs ← Region3.h3_pT F p T
        let rhos ← F.div (Num.ofInt 1) (← Region3.v3_ph F p hs)
        UnitConverter.fromSIunit_s F u (← Region3.s3_rhoT F rhos T)
      else do
        if region = 4 then do
          warn "function s_pt is not available in region 4 (p %f, T %f)"
          pure Num.nan
        else do
          if region = 5 then do
            UnitConverter.fromSIunit_s F u (← Region5.s5_pT F p T)
          else do
            warn "Region switch s_pt returned unknown value %d for input p %f and T %f"
            pure Num.nan

/-- pyXSteam/XSteam.py:1025-1070 -/
noncomputable def s_ph (F : FP) (u : UnitSystem) (p : Num) (h : Num) : Py Num := do
  let p ← UnitConverter.toSIunit_p F u p
  let h ← UnitConverter.toSIunit_h F u h
  let region ← RegionSelection.region_ph F p h
  if region = 1 then do
    let T ← Region1.T1_ph F p h
    UnitConverter.fromSIunit_s F u (← Region1.s1_pT F p T)
  else do
    if region = 2 then do
      let T ← Region2.T2_ph F p h
      UnitConverter.fromSIunit_s F u (← Region2.s2_pT F p T)
    else do
      if region = 3 then do
        let rhos ← F.div (Num.ofInt 1) (← Region3.v3_ph F p h)
        let Ts ← Region3.T3_ph F p h
        UnitConverter.fromSIunit_s F u (← Region3.s3_rhoT F rhos Ts)
      else do
        if region = 4 then do
          let Ts ← Region4.T4_p F p
          let xs ← Region4.x4_ph F p h
          let (s4v, s4L) ← if p < (F.lit 16.529) then do
            let s4v ← Region2.s2_pT F p Ts
            let s4L ← Region1.s1_pT F p Ts
            pure (s4v, s4L)
          else do
            let v4v ← Region3.v3_ph F p (← Region4.h4V_p F p)
            let s4v ← Region3.s3_rhoT F (← F.div (Num.ofInt 1) v4v) Ts
            let v4L ← Region3.v3_ph F p (← Region4.h4L_p F p)
            let s4L ← Region3.s3_rhoT F (← F.div (Num.ofInt 1) v4L) Ts
            pure (s4v, s4L)
          UnitConverter.fromSIunit_s F u (F.add (F.mul xs s4v) (F.mul (F.sub (Num.ofInt 1) xs) s4L))
        else do
          if region = 5 then do
            let T ← Region5.T5_ph F p h
            UnitConverter.fromSIunit_s F u (← Region5.s5_pT F p T)
          else do
            warn "Region switch s_ph returned unknown value %d for input p %f and h %f"
            pure Num.nan

/-- pyXSteam/XSteam.py:1074-1096 -/
noncomputable def uV_p (F : FP) (u : UnitSystem) (p : Num) : Py Num := do
  let p ← UnitConverter.toSIunit_p F u p
  if (p > (F.lit 0.000611657)) ∧ (p < (F.lit 22.06395)) then do
    if p < (F.lit 16.529) then do
      UnitConverter.fromSIunit_u F u (← Region2.u2_pT F p (← Region4.T4_p F p))
    else do
      UnitConverter.fromSIunit_u F u (← Region3.u3_rhoT F (← F.div (Num.ofInt 1) (← Region3.v3_ph F p (← Region4.h4V_p F p))) (← Region4.T4_p F p))
  else do
    pure Num.nan

/-- pyXSteam/XSteam.py:1098-1121 -/
noncomputable def uL_p (F : FP) (u : UnitSystem) (p : Num) : Py Num := do
  let p ← UnitConverter.toSIunit_p F u p
  if (p > (F.lit 0.000611657)) ∧ (p < (F.lit 22.06395)) then do
    if p < (F.lit 16.529) then do
      UnitConverter.fromSIunit_u F u (← Region1.u1_pT F p (← Region4.T4_p F p))
    else do
      UnitConverter.fromSIunit_u F u (← Region3.u3_rhoT F (← F.div (Num.ofInt 1) (← Region3.v3_ph F p (← Region4.h4L_p F p))) (← Region4.T4_p F p))
  else do
    warn "pressure %f out of range"
    pure Num.nan

/-- pyXSteam/XSteam.py:1123-1152 -/
noncomputable def uV_t (F : FP) (u : UnitSystem) (t : Num) : Py Num := do
  let T ← UnitConverter.toSIunit_T F u t
  if (T > (F.lit 273.15)) ∧ (T < (F.lit 647.096)) then do
    if T ≤ (F.lit 623.15) then do
      UnitConverter.fromSIunit_u F u (← Region2.u2_pT F (← Region4.p4_T F T) T)
    else do
      UnitConverter.fromSIunit_u F u (← Region3.u3_rhoT F (← F.div (Num.ofInt 1) (← Region3.v3_ph F (← Region4.p4_T F T) (← Region4.h4V_p F (← Region4.p4_T F T)))) T)
  else do
    warn "temperature %f out of range"
    pure Num.nan

/-- pyXSteam/XSteam.py:1154-1183 -/
noncomputable def uL_t (F : FP) (u : UnitSystem) (t : Num) : Py Num := do
  let T ← UnitConverter.toSIunit_T F u t
  if (T > (F.lit 273.15)) ∧ (T < (F.lit 647.096)) then do
    if T ≤ (F.lit 623.15) then do
      UnitConverter.fromSIunit_u F u (← Region1.u1_pT F (← Region4.p4_T F T) T)
    else do
      UnitConverter.fromSIunit_u F u (← Region3.u3_rhoT F (← F.div (Num.ofInt 1) (← Region3.v3_ph F (← Region4.p4_T F T) (← Region4.h4L_p F (← Region4.p4_T F T)))) T)
  else do
    warn "temperature %f out of range"
    pure Num.nan

/-- pyXSteam/XSteam.py:1185-1222 -/
noncomputable def u_pt (F : FP) (u : UnitSystem) (p : Num) (t : Num) : Py Num := do
  let p ← UnitConverter.toSIunit_p F u p
  let T ← UnitConverter.toSIunit_T F u t
  let region ← RegionSelection.region_pT F p T
  if region = 1 then do
    UnitConverter.fromSIunit_u F u (← Region1.u1_pT F p T)
  else do
    if region = 2 then do
      UnitConverter.fromSIunit_u F u (← Region2.u2_pT F p T)
    else do
      if region = 3 then do
        let hs ← Region3.h3_pT F p T
        let rhos ← F.div (Num.ofInt 1) (← Region3.v3_ph F p hs)
        UnitConverter.fromSIunit_u F u (← Region3.u3_rhoT F rhos T)
      else do
        if region = 4 then do
          warn "function u_pt is not available in region 4 for input p %f and T %f"
          pure Num.nan
        else do
          if region = 5 then do
            UnitConverter.fromSIunit_u F u (← Region5.u5_pT F p T)
          else do
            warn "Region switch u_pt returned unknown value %d for input p %f and T %f"
            pure Num.nan

/-- pyXSteam/XSteam.py:1224-1269 -/
noncomputable def u_ph (F : FP) (u : UnitSystem) (p : Num) (h : Num) : Py Num := do
  let p ← UnitConverter.toSIunit_p F u p
  let h ← UnitConverter.toSIunit_h F u h
  let region ← RegionSelection.region_ph F p h
  if region = 1 then do
    let Ts ← Region1.T1_ph F p h
    UnitConverter.fromSIunit_u F u (← Region1.u1_pT F p Ts)
  else do
    if region = 2 then do
      let Ts ← Region2.T2_ph F p h
      UnitConverter.fromSIunit_u F u (← Region2.u2_pT F p Ts)
    else do
      if region = 3 then do
        let rhos ← F.div (Num.ofInt 1) (← Region3.v3_ph F p h)
        let Ts ← Region3.T3_ph F p h
        UnitConverter.fromSIunit_u F u (← Region3.u3_rhoT F rhos Ts)
      else do
        if region = 4 then do
          let Ts ← Region4.T4_p F p
          let xs ← Region4.x4_ph F p h
          let (u4v, u4L) ← if p < (F.lit 16.529) then do
            let u4v ← Region2.u2_pT F p Ts
            let u4L ← Region1.u1_pT F p Ts
            pure (u4v, u4L)
          else do
            let v4v ← Region3.v3_ph F p (← Region4.h4V_p F p)
            let u4v ← Region3.u3_rhoT F (← F.div (Num.ofInt 1) v4v) Ts
            let v4L ← Region3.v3_ph F p (← Region4.h4L_p F p)
            let u4L ← Region3.u3_rhoT F (← F.div (Num.ofInt 1) v4L) Ts
            pure (u4v, u4L)
          UnitConverter.fromSIunit_u F u (F.add (F.mul xs u4v) (F.mul (F.sub (Num.ofInt 1) xs) u4L))
        else do
          if region = 5 then do
            let Ts ← Region5.T5_ph F p h
            UnitConverter.fromSIunit_u F u (← Region5.u5_pT F p Ts)
          else do
            warn "Region switch u_ph returned unknown value %d for input p %f and h %f"
            pure Num.nan

/-- pyXSteam/XSteam.py:1271-1317 -/
noncomputable def u_ps (F : FP) (u : UnitSystem) (p : Num) (s : Num) : Py Num := do
  let p ← UnitConverter.toSIunit_p F u p
  let s ← UnitConverter.toSIunit_s F u s
  let region ← RegionSelection.region_ps F p s
  if region = 1 then do
    let Ts ← Region1.T1_ps F p s
    UnitConverter.fromSIunit_u F u (← Region1.u1_pT F p Ts)
  else do
    if region = 2 then do
      let Ts ← Region2.T2_ps F p s
      UnitConverter.fromSIunit_u F u (← Region2.u2_pT F p Ts)
    else do
      if region = 3 then do
        let rhos ← F.div (Num.ofInt 1) (← Region3.v3_ps F p s)
        let Ts ← Region3.T3_ps F p s
        UnitConverter.fromSIunit_u F u (← Region3.u3_rhoT F rhos Ts)
      else do
        if region = 4 then do
          let (uLp, uVp) ← if p < (F.lit 16.529) then do
            let uLp ← Region1.u1_pT F p (← Region4.T4_p F p)
            let uVp ← Region2.u2_pT F p (← Region4.T4_p F p)
            pure (uLp, uVp)
          else do
            let uLp ← Region3.u3_rhoT F (← F.div (Num.ofInt 1) (← Region3.v3_ph F p (← Region4.h4L_p F p))) (← Region4.T4_p F p)
            let uVp ← Region3.u3_rhoT F (← F.div (Num.ofInt 1) (← Region3.v3_ph F p (← Region4.h4V_p F p))) (← Region4.T4_p F p)
            pure (uLp, uVp)
          let xs ← Region4.x4_ps F p s
          UnitConverter.fromSIunit_u F u (F.add (F.mul xs uVp) (F.mul (F.sub (Num.ofInt 1) xs) uLp))
        else do
          if region = 5 then do
            let Ts ← Region5.T5_ps F p s
            UnitConverter.fromSIunit_u F u (← Region5.u5_pT F p Ts)
          else do
            warn "Region switch u_ps returned unknown value %d for input p %f and s %f"
            pure Num.nan

/-- pyXSteam/XSteam.py:1321-1344 -/
noncomputable def CpV_p (F : FP) (u : UnitSystem) (p : Num) : Py Num := do
  let p ← UnitConverter.toSIunit_p F u p
  if (p > (F.lit 0.000611657)) ∧ (p < (F.lit 22.06395)) then do
    if p < (F.lit 16.529) then do
      UnitConverter.fromSIunit_Cp F u (← Region2.Cp2_pT F p (← Region4.T4_p F p))
    else do
      UnitConverter.fromSIunit_Cp F u (← Region3.Cp3_rhoT F (← F.div (Num.ofInt 1) (← Region3.v3_ph F p (← Region4.h4V_p F p))) (← Region4.T4_p F p))
  else do
    warn "preassure %f out of range"
    pure Num.nan

/-- pyXSteam/XSteam.py:1346-1369 -/
noncomputable def CpL_p (F : FP) (u : UnitSystem) (p : Num) : Py Num := do
  let p ← UnitConverter.toSIunit_p F u p
  if (p > (F.lit 0.000611657)) ∧ (p < (F.lit 22.06395)) then do
    if p < (F.lit 16.529) then do
      UnitConverter.fromSIunit_Cp F u (← Region1.Cp1_pT F p (← Region4.T4_p F p))
    else do
      UnitConverter.fromSIunit_Cp F u (← Region3.Cp3_rhoT F (← F.div (Num.ofInt 1) (← Region3.v3_ph F p (← Region4.h4L_p F p))) (← Region4.T4_p F p))
  else do
    warn "preassure %f out of range"
    pure Num.nan

/-- pyXSteam/XSteam.py:1371-1400 -/
noncomputable def CpV_t (F : FP) (u : UnitSystem) (t : Num) : Py Num := do
  let T ← UnitConverter.toSIunit_T F u t
  if (T > (F.lit 273.15)) ∧ (T < (F.lit 647.096)) then do
    if T ≤ (F.lit 623.15) then do
      UnitConverter.fromSIunit_Cp F u (← Region2.Cp2_pT F (← Region4.p4_T F T) T)
    else do
      UnitConverter.fromSIunit_Cp F u (← Region3.Cp3_rhoT F (← F.div (Num.ofInt 1) (← Region3.v3_ph F (← Region4.p4_T F T) (← Region4.h4V_p F (← Region4.p4_T F T)))) T)
  else do
    warn "temperature %f out of range"
    pure Num.nan

/-- pyXSteam/XSteam.py:1402-1431 -/
noncomputable def CpL_t (F : FP) (u : UnitSystem) (t : Num) : Py Num := do
  let T ← UnitConverter.toSIunit_T F u t
  if (T > (F.lit 273.15)) ∧ (T < (F.lit 647.096)) then do
    if T ≤ (F.lit 623.15) then do
      UnitConverter.fromSIunit_Cp F u (← Region1.Cp1_pT F (← Region4.p4_T F T) T)
    else do
      UnitConverter.fromSIunit_Cp F u (← Region3.Cp3_rhoT F (← F.div (Num.ofInt 1) (← Region3.v3_ph F (← Region4.p4_T F T) (← Region4.h4L_p F (← Region4.p4_T F T)))) T)
  else do
    warn "temperature %f out of range"
    pure Num.nan

/-- pyXSteam/XSteam.py:1433-1470 -/
noncomputable def Cp_pt (F : FP) (u : UnitSystem) (p : Num) (t : Num) : Py Num := do
  let p ← UnitConverter.toSIunit_p F u p
  let T ← UnitConverter.toSIunit_T F u t
  let region ← RegionSelection.region_pT F p T
  if region = 1 then do
    UnitConverter.fromSIunit_Cp F u (← Region1.Cp1_pT F p T)
  else do
    if region = 2 then do
      UnitConverter.fromSIunit_Cp F u (← Region2.Cp2_pT F p T)
    else do
      if region = 3 then do
        let hs ← Region3.h3_pT F p T
        let rhos ← F.div (Num.ofInt 1) (← Region3.v3_ph F p hs)
        UnitConverter.fromSIunit_Cp F u (← Region3.Cp3_rhoT F rhos T)
      else do
        if region = 4 then do
          warn "function Cp_pt is not available in region 4 for input p %f and T %f"
          pure Num.nan
        else do
          if region = 5 then do
            UnitConverter.fromSIunit_Cp F u (← Region5.Cp5_pT F p T)
          else do
            warn "Region switch Cp_pt returned unknown value %d for input p %f and T %f"
            pure Num.nan

/-- pyXSteam/XSteam.py:1472-1512 -/
noncomputable def Cp_ph (F : FP) (u : UnitSystem) (p : Num) (h : Num) : Py Num := do
  let p ← UnitConverter.toSIunit_p F u p
  let h ← UnitConverter.toSIunit_h F u h
  let region ← RegionSelection.region_ph F p h
  if region = 1 then do
    let Ts ← Region1.T1_ph F p h
    UnitConverter.fromSIunit_Cp F u (← Region1.Cp1_pT F p Ts)
  else do
    if region = 2 then do
      let Ts ← Region2.T2_ph F p h
      UnitConverter.fromSIunit_Cp F u (← Region2.Cp2_pT F p Ts)
    else do
      if region = 3 then do
        let rhos ← F.div (Num.ofInt 1) (← Region3.v3_ph F p h)
        let Ts ← Region3.T3_ph F p h
        UnitConverter.fromSIunit_Cp F u (← Region3.Cp3_rhoT F rhos Ts)
      else do
        if region = 4 then do
          warn "function Cp_ph is not available in region 4  for input p %f and h %f"
          pure Num.nan
        else do
          if region = 5 then do
            let Ts ← Region5.T5_ph F p h
            UnitConverter.fromSIunit_Cp F u (← Region5.Cp5_pT F p Ts)
          else do
            warn "Region switch Cp_ph returned unknown value %d for input p %f and h %f"
            pure Num.nan

/-- pyXSteam/XSteam.py:1514-1554 -/
noncomputable def Cp_ps (F : FP) (u : UnitSystem) (p : Num) (s : Num) : Py Num := do
  let p ← UnitConverter.toSIunit_p F u p
  let s ← UnitConverter.toSIunit_s F u s
  let region ← RegionSelection.region_ps F p s
  if region = 1 then do
    let Ts ← Region1.T1_ps F p s
    UnitConverter.fromSIunit_Cp F u (← Region1.Cp1_pT F p Ts)
  else do
    if region = 2 then do
      let Ts ← Region2.T2_ps F p s
      UnitConverter.fromSIunit_Cp F u (← Region2.Cp2_pT F p Ts)
    else do
      if region = 3 then do
        let rhos ← F.div (Num.ofInt 1) (← Region3.v3_ps F p s)
        let Ts ← Region3.T3_ps F p s
        UnitConverter.fromSIunit_Cp F u (← Region3.Cp3_rhoT F rhos Ts)
      else do
        if region = 4 then do
          warn "function Cp_ps is not available in region 4 for input p %f and s %f"
          pure Num.nan
        else do
          if region = 5 then do
            let Ts ← Region5.T5_ps F p s
            UnitConverter.fromSIunit_Cp F u (← Region5.Cp5_pT F p Ts)
          else do
            warn "Region switch Cp_ps returned unknown value %d for input p %f and s %f"
            pure Num.nan

/-- pyXSteam/XSteam.py:1558-1581 -/
noncomputable def CvV_p (F : FP) (u : UnitSystem) (p : Num) : Py Num := do
  let p ← UnitConverter.toSIunit_p F u p
  if (p > (F.lit 0.000611657)) ∧ (p < (F.lit 22.06395)) then do
    if p < (F.lit 16.529) then do
      UnitConverter.fromSIunit_Cv F u (← Region2.Cv2_pT F p (← Region4.T4_p F p))
    else do
      UnitConverter.fromSIunit_Cv F u (← Region3.Cv3_rhoT F (← F.div (Num.ofInt 1) (← Region3.v3_ph F p (← Region4.h4V_p F p))) (← Region4.T4_p F p))
  else do
    warn "pressure %f out of range"
    pure Num.nan

/-- pyXSteam/XSteam.py:1583-1606 -/
noncomputable def CvL_p (F : FP) (u : UnitSystem) (p : Num) : Py Num := do
  let p ← UnitConverter.toSIunit_p F u p
  if (p > (F.lit 0.000611657)) ∧ (p < (F.lit 22.06395)) then do
    if p < (F.lit 16.529) then do
      UnitConverter.fromSIunit_Cv F u (← Region1.Cv1_pT F p (← Region4.T4_p F p))
    else do
      UnitConverter.fromSIunit_Cv F u (← Region3.Cv3_rhoT F (← F.div (Num.ofInt 1) (← Region3.v3_ph F p (← Region4.h4L_p F p))) (← Region4.T4_p F p))
  else do
    warn "pressure %f out of range"
    pure Num.nan

/-- pyXSteam/XSteam.py:1608-1637 -/
noncomputable def CvV_t (F : FP) (u : UnitSystem) (t : Num) : Py Num := do
  let T ← UnitConverter.toSIunit_T F u t
  if (T > (F.lit 273.15)) ∧ (T < (F.lit 647.096)) then do
    if T ≤ (F.lit 623.15) then do
      UnitConverter.fromSIunit_Cv F u (← Region2.Cv2_pT F (← Region4.p4_T F T) T)
    else do
      UnitConverter.fromSIunit_Cv F u (← Region3.Cv3_rhoT F (← F.div (Num.ofInt 1) (← Region3.v3_ph F (← Region4.p4_T F T) (← Region4.h4V_p F (← Region4.p4_T F T)))) T)
  else do
    warn "temperature %f out of range"
    pure Num.nan

/-- pyXSteam/XSteam.py:1639-1668 -/
noncomputable def CvL_t (F : FP) (u : UnitSystem) (t : Num) : Py Num := do
  let T ← UnitConverter.toSIunit_T F u t
  if (T > (F.lit 273.15)) ∧ (T < (F.lit 647.096)) then do
    if T ≤ (F.lit 623.15) then do
      UnitConverter.fromSIunit_Cv F u (← Region1.Cv1_pT F (← Region4.p4_T F T) T)
    else do
      UnitConverter.fromSIunit_Cv F u (← Region3.Cv3_rhoT F (← F.div (Num.ofInt 1) (← Region3.v3_ph F (← Region4.p4_T F T) (← Region4.h4L_p F (← Region4.p4_T F T)))) T)
  else do
    warn "temperature %f out of range"
    pure Num.nan

/-- pyXSteam/XSteam.py:1670-1707 -/
noncomputable def Cv_pt (F : FP) (u : UnitSystem) (p : Num) (t : Num) : Py Num := do
  let p ← UnitConverter.toSIunit_p F u p
  let T ← UnitConverter.toSIunit_T F u t
  let region ← RegionSelection.region_pT F p T
  if region = 1 then do
    UnitConverter.fromSIunit_Cv F u (← Region1.Cv1_pT F p T)
  else do
    if region = 2 then do
      UnitConverter.fromSIunit_Cv F u (← Region2.Cv2_pT F p T)
    else do
      if region = 3 then do
        let hs ← Region3.h3_pT F p T
        let rhos ← F.div (Num.ofInt 1) (← Region3.v3_ph F p hs)
        UnitConverter.fromSIunit_Cv F u (← Region3.Cv3_rhoT F rhos T)
      else do
        if region = 4 then do
          warn "function Cv_pt is not available in region 4 for input p %f and T %f"
          pure Num.nan
        else do
          if region = 5 then do
            UnitConverter.fromSIunit_Cv F u (← Region5.Cv5_pT F p T)
          else do
            warn "Region switch Cv_pt returned unknown value %d for input p %f and T %f"
            pure Num.nan

/-- pyXSteam/XSteam.py:1709-1749 -/
noncomputable def Cv_ph (F : FP) (u : UnitSystem) (p : Num) (h : Num) : Py Num := do
  let p ← UnitConverter.toSIunit_p F u p
  let h ← UnitConverter.toSIunit_h F u h
  let region ← RegionSelection.region_ph F p h
  if region = 1 then do
    let Ts ← Region1.T1_ph F p h
    UnitConverter.fromSIunit_Cv F u (← Region1.Cv1_pT F p Ts)
  else do
    if region = 2 then do
      let Ts ← Region2.T2_ph F p h
      UnitConverter.fromSIunit_Cv F u (← Region2.Cv2_pT F p Ts)
    else do
      if region = 3 then do
        let rhos ← F.div (Num.ofInt 1) (← Region3.v3_ph F p h)
        let Ts ← Region3.T3_ph F p h
        UnitConverter.fromSIunit_Cv F u (← Region3.Cv3_rhoT F rhos Ts)
      else do
        if region = 4 then do
          warn "function Cv_ph is not available in region 4 for input p %f and h %f"
          pure Num.nan
        else do
          if region = 5 then do
            let Ts ← Region5.T5_ph F p h
            UnitConverter.fromSIunit_Cv F u (← Region5.Cv5_pT F p Ts)
          else do
            warn "Region switch Cv_ph returned unknown value %d for input p %f and h %f"
            pure Num.nan

/-- pyXSteam/XSteam.py:1751-1792 -/
noncomputable def Cv_ps (F : FP) (u : UnitSystem) (p : Num) (s : Num) : Py Num := do
  let p ← UnitConverter.toSIunit_p F u p
  let s ← UnitConverter.toSIunit_s F u s
  let region ← RegionSelection.region_ps F p s
  if region = 1 then do
    let Ts ← Region1.T1_ps F p s
    UnitConverter.fromSIunit_Cv F u (← Region1.Cv1_pT F p Ts)
  else do
    if region = 2 then do
      let Ts ← Region2.T2_ps F p s
      UnitConverter.fromSIunit_Cv F u (← Region2.Cv2_pT F p Ts)
    else do
      if region = 3 then do
        let rhos ← F.div (Num.ofInt 1) (← Region3.v3_ps F p s)
        let Ts ← Region3.T3_ps F p s
        UnitConverter.fromSIunit_Cv F u (← Region3.Cv3_rhoT F rhos Ts)
      else do
        if region = 4 then do
          warn "function Cv_ps is not available in region 4 for input p %f and s %f"
          pure Num.nan
        else do
          if region = 5 then do
            let Ts ← Region5.T5_ps F p s
            UnitConverter.fromSIunit_Cv F u (← Region5.Cv5_pT F p Ts)
          else do
            warn "Region switch Cv_ps returned unknown value %d for input p %f and s %f"
            pure Num.nan

/-- pyXSteam/XSteam.py:1796-1819 -/
noncomputable def wV_p (F : FP) (u : UnitSystem) (p : Num) : Py Num := do
  let p ← UnitConverter.toSIunit_p F u p
  if (p > (F.lit 0.000611657)) ∧ (p < (F.lit 22.06395)) then do
    if p < (F.lit 16.529) then do
      UnitConverter.fromSIunit_w F u (← Region2.w2_pT F p (← Region4.T4_p F p))
    else do
      UnitConverter.fromSIunit_w F u (← Region3.w3_rhoT F (← F.div (Num.ofInt 1) (← Region3.v3_ph F p (← Region4.h4V_p F p))) (← Region4.T4_p F p))
  else do
    warn "pressure %f out of range"
    pure Num.nan

/-- pyXSteam/XSteam.py:1821-1844 -/
noncomputable def wL_p (F : FP) (u : UnitSystem) (p : Num) : Py Num := do
  let p ← UnitConverter.toSIunit_p F u p
  if (p > (F.lit 0.000611657)) ∧ (p < (F.lit 22.06395)) then do
    if p < (F.lit 16.529) then do
      UnitConverter.fromSIunit_w F u (← Region1.w1_pT F p (← Region4.T4_p F p))
    else do
      UnitConverter.fromSIunit_w F u (← Region3.w3_rhoT F (← F.div (Num.ofInt 1) (← Region3.v3_ph F p (← Region4.h4L_p F p))) (← Region4.T4_p F p))
  else do
    warn "pressure %f out of range"
    pure Num.nan

/-- pyXSteam/XSteam.py:1846-1875 -/
noncomputable def wV_t (F : FP) (u : UnitSystem) (t : Num) : Py Num := do
  let T ← UnitConverter.toSIunit_T F u t
  if (T > (F.lit 273.15)) ∧ (T < (F.lit 647.096)) then do
    if T ≤ (F.lit 623.15) then do
      UnitConverter.fromSIunit_w F u (← Region2.w2_pT F (← Region4.p4_T F T) T)
    else do
      UnitConverter.fromSIunit_w F u (← Region3.w3_rhoT F (← F.div (Num.ofInt 1) (← Region3.v3_ph F (← Region4.p4_T F T) (← Region4.h4V_p F (← Region4.p4_T F T)))) T)
  else do
    warn "temperature %f out of range"
    pure Num.nan

/-- pyXSteam/XSteam.py:1877-1906 -/
noncomputable def wL_t (F : FP) (u : UnitSystem) (t : Num) : Py Num := do
  let T ← UnitConverter.toSIunit_T F u t
  if (T > (F.lit 273.15)) ∧ (T < (F.lit 647.096)) then do
    if T ≤ (F.lit 623.15) then do
      UnitConverter.fromSIunit_w F u (← Region1.w1_pT F (← Region4.p4_T F T) T)
    else do
      UnitConverter.fromSIunit_w F u (← Region3.w3_rhoT F (← F.div (Num.ofInt 1) (← Region3.v3_ph F (← Region4.p4_T F T) (← Region4.h4L_p F (← Region4.p4_T F T)))) T)
  else do
    warn "temperature %f out of range"
    pure Num.nan

/-- pyXSteam/XSteam.py:1908-1945 -/
noncomputable def w_pt (F : FP) (u : UnitSystem) (p : Num) (t : Num) : Py Num := do
  let p ← UnitConverter.toSIunit_p F u p
  let T ← UnitConverter.toSIunit_T F u t
  let region ← RegionSelection.region_pT F p T
  if region = 1 then do
    UnitConverter.fromSIunit_w F u (← Region1.w1_pT F p T)
  else do
    if region = 2 then do
      UnitConverter.fromSIunit_w F u (← Region2.w2_pT F p T)
    else do
      if region = 3 then do
        let hs ← Region3.h3_pT F p T
        let rhos ← F.div (Num.ofInt 1) (← Region3.v3_ph F p hs)
        UnitConverter.fromSIunit_w F u (← Region3.w3_rhoT F rhos T)
      else do
        if region = 4 then do
          warn "function w_pt is not available in region 4 for input p %f and T %f"
          pure Num.nan
        else do
          if region = 5 then do
            UnitConverter.fromSIunit_w F u (← Region5.w5_pT F p T)
          else do
            warn "Region switch w_pt returned unknown value %d for input p %f and T %f"
            pure Num.nan

/-- pyXSteam/XSteam.py:1947-1985 -/
noncomputable def w_ph (F : FP) (u : UnitSystem) (p : Num) (h : Num) : Py Num := do
  let p ← UnitConverter.toSIunit_p F u p
  let h ← UnitConverter.toSIunit_h F u h
  let region ← RegionSelection.region_ph F p h
  if region = 1 then do
    let Ts ← Region1.T1_ph F p h
    UnitConverter.fromSIunit_w F u (← Region1.w1_pT F p Ts)
  else do
    if region = 2 then do
      let Ts ← Region2.T2_ph F p h
      UnitConverter.fromSIunit_w F u (← Region2.w2_pT F p Ts)
    else do
      if region = 3 then do
        let rhos ← F.div (Num.ofInt 1) (← Region3.v3_ph F p h)
        let Ts ← Region3.T3_ph F p h
        UnitConverter.fromSIunit_w F u (← Region3.w3_rhoT F rhos Ts)
      else do
        if region = 4 then do
          warn "function w_ph is not available in region 4 p %f and h %f"
          pure Num.nan
        else do
          if region = 5 then do
            let Ts ← Region5.T5_ph F p h
            UnitConverter.fromSIunit_w F u (← Region5.w5_pT F p Ts)
          else do
            warn "Region switch w_ph returned unknown value %d for input p %f and h %f"
            pure Num.nan

/-- pyXSteam/XSteam.py:1987-2028 -/
noncomputable def w_ps (F : FP) (u : UnitSystem) (p : Num) (s : Num) : Py Num := do
  let p ← UnitConverter.toSIunit_p F u p
  let s ← UnitConverter.toSIunit_s F u s
  let region ← RegionSelection.region_ps F p s
  if region = 1 then do
    let Ts ← Region1.T1_ps F p s
    UnitConverter.fromSIunit_w F u (← Region1.w1_pT F p Ts)
  else do
    if region = 2 then do
      let Ts ← Region2.T2_ps F p s
      UnitConverter.fromSIunit_w F u (← Region2.w2_pT F p Ts)
    else do
      if region = 3 then do
        let rhos ← F.div (Num.ofInt 1) (← Region3.v3_ps F p s)
        let Ts ← Region3.T3_ps F p s
        UnitConverter.fromSIunit_w F u (← Region3.w3_rhoT F rhos Ts)
      else do
        if region = 4 then do
          warn "function w_ps is not available in region 4 for input p %f and s %f"
          pure Num.nan
        else do
          if region = 5 then do
            let Ts ← Region5.T5_ps F p s
            UnitConverter.fromSIunit_w F u (← Region5.w5_pT F p Ts)
          else do
            warn "Region switch w_ps returned unknown value %d for input p %f and s %f"
            pure Num.nan

/-- pyXSteam/XSteam.py:2035-2066 -/
noncomputable def my_pt (F : FP) (u : UnitSystem) (p : Num) (t : Num) : Py Num := do
  let p ← UnitConverter.toSIunit_p F u p
  let T ← UnitConverter.toSIunit_T F u t
  let region ← RegionSelection.region_pT F p T
  if region = 4 then do
    warn "function my_pt is not available in region 4 for input p %f and T %f"
    pure Num.nan
  else do
    if region ∈ ([1, 2, 3, 5] : List ℤ) then do
      UnitConverter.fromSIunit_my F u (← TransportProperties.my_AllRegions_pT F p T)
    else do
      warn "Region switch my_pt returned unknown value %d for input p %f and T %f"
      pure Num.nan

/-- pyXSteam/XSteam.py:2068-2099 -/
noncomputable def my_ph (F : FP) (u : UnitSystem) (p : Num) (h : Num) : Py Num := do
  let p ← UnitConverter.toSIunit_p F u p
  let h ← UnitConverter.toSIunit_h F u h
  let region ← RegionSelection.region_ph F p h
  if region ∈ ([1, 2, 3, 5] : List ℤ) then do
    UnitConverter.fromSIunit_my F u (← TransportProperties.my_AllRegions_ph F p h)
  else do
    if region = 4 then do
      warn "function my_pt is not available in region 4 for input p %f and h %f"
      pure Num.nan
    else do
      warn "Region switch my_ph returned unknown value %d for input p %f and h %f"
      pure Num.nan

/-- pyXSteam/XSteam.py:2101-2112 -/
noncomputable def my_ps (F : FP) (u : UnitSystem) (p : Num) (s : Num) : Py Num := do
  let h ← XSteam.h_ps F u p s
  XSteam.my_ph F u p h

/-- pyXSteam/XSteam.py:2259-2280 -/
noncomputable def tc_pt (F : FP) (u : UnitSystem) (p : Num) (t : Num) : Py Num := do
  let Ts := t
  let ps := p
  let v ← XSteam.v_pt F u ps Ts
  let p ← UnitConverter.toSIunit_p F u ps
  let T ← UnitConverter.toSIunit_T F u Ts
  let v ← UnitConverter.toSIunit_v F u v
  let rho ← F.div (Num.ofInt 1) v
  UnitConverter.fromSIunit_tc F u (← TransportProperties.tc_ptrho F p T rho)

/-- pyXSteam/XSteam.py:2116-2129 -/
noncomputable def pr_pt (F : FP) (u : UnitSystem) (p : Num) (t : Num) : Py Num := do
  let Cp ← UnitConverter.toSIunit_Cp F u (← XSteam.Cp_pt F u p t)
  let my ← UnitConverter.toSIunit_my F u (← XSteam.my_pt F u p t)
  let tc ← UnitConverter.toSIunit_tc F u (← XSteam.tc_pt F u p t)
  F.div (F.mul (F.mul Cp (Num.ofInt 1000)) my) tc

/-- pyXSteam/XSteam.py:2282-2302 -/
noncomputable def tc_ph (F : FP) (u : UnitSystem) (p : Num) (h : Num) : Py Num := do
  let hs := h
  let ps := p
  let v ← XSteam.v_ph F u ps hs
  let T ← XSteam.t_ph F u ps hs
  let p ← UnitConverter.toSIunit_p F u ps
  let T ← UnitConverter.toSIunit_T F u T
  let v ← UnitConverter.toSIunit_v F u v
  let rho ← F.div (Num.ofInt 1) v
  UnitConverter.fromSIunit_tc F u (← TransportProperties.tc_ptrho F p T rho)

/-- pyXSteam/XSteam.py:2131-2144 -/
noncomputable def pr_ph (F : FP) (u : UnitSystem) (p : Num) (h : Num) : Py Num := do
  let Cp ← UnitConverter.toSIunit_Cp F u (← XSteam.Cp_ph F u p h)
  let my ← UnitConverter.toSIunit_my F u (← XSteam.my_ph F u p h)
  let tc ← UnitConverter.toSIunit_tc F u (← XSteam.tc_ph F u p h)
  F.div (F.mul (F.mul Cp (Num.ofInt 1000)) my) tc

/-- pyXSteam/XSteam.py:2148-2160 -/
noncomputable def st_t (F : FP) (u : UnitSystem) (t : Num) : Py Num := do
  let T ← UnitConverter.toSIunit_T F u t
  UnitConverter.fromSIunit_st F u (← TransportProperties.Surface_Tension_T F T)

/-- pyXSteam/XSteam.py:2162-2175 -/
noncomputable def st_p (F : FP) (u : UnitSystem) (p : Num) : Py Num := do
  let T ← XSteam.tsat_p F u p
  let T ← UnitConverter.toSIunit_T F u T
  UnitConverter.fromSIunit_st F u (← TransportProperties.Surface_Tension_T F T)

/-- pyXSteam/XSteam.py:2180-2197 -/
noncomputable def tcL_p (F : FP) (u : UnitSystem) (p : Num) : Py Num := do
  let t ← XSteam.tsat_p F u p
  let v ← XSteam.vL_p F u p
  let p ← UnitConverter.toSIunit_p F u p
  let T ← UnitConverter.toSIunit_T F u t
  let v ← UnitConverter.toSIunit_v F u v
  let rho ← F.div (F.lit 1.0) v
  UnitConverter.fromSIunit_tc F u (← TransportProperties.tc_ptrho F p T rho)

/-- pyXSteam/XSteam.py:2199-2217 -/
noncomputable def tcV_p (F : FP) (u : UnitSystem) (p : Num) : Py Num := do
  let ps := p
  let T ← XSteam.tsat_p F u p
  let v ← XSteam.vV_p F u ps
  let p ← UnitConverter.toSIunit_p F u p
  let T ← UnitConverter.toSIunit_T F u T
  let v ← UnitConverter.toSIunit_v F u v
  let rho ← F.div (F.lit 1.0) v
  UnitConverter.fromSIunit_tc F u (← TransportProperties.tc_ptrho F p T rho)

/-- pyXSteam/XSteam.py:2219-2237 -/
noncomputable def tcL_t (F : FP) (u : UnitSystem) (t : Num) : Py Num := do
  let Ts := t
  let p ← XSteam.psat_t F u Ts
  let v ← XSteam.vL_t F u Ts
  let p ← UnitConverter.toSIunit_p F u p
  let T ← UnitConverter.toSIunit_T F u Ts
  let v ← UnitConverter.toSIunit_v F u v
  let rho ← F.div (Num.ofInt 1) v
  UnitConverter.fromSIunit_tc F u (← TransportProperties.tc_ptrho F p T rho)

/-- pyXSteam/XSteam.py:2239-2257 -/
noncomputable def tcV_t (F : FP) (u : UnitSystem) (t : Num) : Py Num := do
  let Ts := t
  let p ← XSteam.psat_t F u Ts
  let v ← XSteam.vV_t F u Ts
  let p ← UnitConverter.toSIunit_p F u p
  let T ← UnitConverter.toSIunit_T F u Ts
  let v ← UnitConverter.toSIunit_v F u v
  let rho ← F.div (Num.ofInt 1) v
  UnitConverter.fromSIunit_tc F u (← TransportProperties.tc_ptrho F p T rho)

/-- pyXSteam/XSteam.py:2304-2325 -/
noncomputable def tc_hs (F : FP) (u : UnitSystem) (h : Num) (s : Num) : Py Num := do
  let hs := h
  let p ← XSteam.p_hs F u hs s
  let ps := p
  let v ← XSteam.v_ph F u ps hs
  let T ← XSteam.t_ph F u ps hs
  let p ← UnitConverter.toSIunit_p F u p
  let T ← UnitConverter.toSIunit_T F u T
  let v ← UnitConverter.toSIunit_v F u v
  let rho ← F.div (Num.ofInt 1) v
  UnitConverter.fromSIunit_tc F u (← TransportProperties.tc_ptrho F p T rho)

/-- pyXSteam/XSteam.py:2329-2345 -/
noncomputable def x_ph (F : FP) (u : UnitSystem) (p : Num) (h : Num) : Py Num := do
  let p ← UnitConverter.toSIunit_p F u p
  let h ← UnitConverter.toSIunit_h F u h
  if (p > (F.lit 0.000611657)) ∧ (p < (F.lit 22.06395)) then do
    UnitConverter.fromSIunit_x F u (← Region4.x4_ph F p h)
  else do
    warn "pressure out of range"
    pure Num.nan

/-- pyXSteam/XSteam.py:2347-2363 -/
noncomputable def x_ps (F : FP) (u : UnitSystem) (p : Num) (s : Num) : Py Num := do
  let p ← UnitConverter.toSIunit_p F u p
  let s ← UnitConverter.toSIunit_s F u s
  if (p > (F.lit 0.000611657)) ∧ (p < (F.lit 22.06395)) then do
    UnitConverter.fromSIunit_x F u (← Region4.x4_ps F p s)
  else do
    warn "pressure %f out of range"
    pure Num.nan

/-- pyXSteam/XSteam.py:2367-2392 -/
noncomputable def vx_ph (F : FP) (u : UnitSystem) (p : Num) (h : Num) : Py Num := do
  let p ← UnitConverter.toSIunit_p F u p
  let h ← UnitConverter.toSIunit_h F u h
  if (p > (F.lit 0.000611657)) ∧ (p < (F.lit 22.06395)) then do
    let (vL, vV) ← if p < (F.lit 16.529) then do
      let vL ← Region1.v1_pT F p (← Region4.T4_p F p)
      let vV ← Region2.v2_pT F p (← Region4.T4_p F p)
      pure (vL, vV)
    else do
      let vL ← Region3.v3_ph F p (← Region4.h4L_p F p)
      let vV ← Region3.v3_ph F p (← Region4.h4V_p F p)
      pure (vL, vV)
    let xs ← Region4.x4_ph F p h
    UnitConverter.fromSIunit_vx F u (← F.div (F.mul xs vV) (F.add (F.mul xs vV) (F.mul (F.sub (Num.ofInt 1) xs) vL)))
  else do
    warn "pressure %f out of range"
    pure Num.nan

/-- pyXSteam/XSteam.py:2394-2419 -/
noncomputable def vx_ps (F : FP) (u : UnitSystem) (p : Num) (s : Num) : Py Num := do
  let p ← UnitConverter.toSIunit_p F u p
  let s ← UnitConverter.toSIunit_s F u s
  if (p > (F.lit 0.000611657)) ∧ (p < (F.lit 22.06395)) then do
    let (vL, vV) ← if p < (F.lit 16.529) then do
      let vL ← Region1.v1_pT F p (← Region4.T4_p F p)
      let vV ← Region2.v2_pT F p (← Region4.T4_p F p)
      pure (vL, vV)
    else do
      let vL ← Region3.v3_ph F p (← Region4.h4L_p F p)
      let vV ← Region3.v3_ph F p (← Region4.h4V_p F p)
      pure (vL, vV)
    let xs ← Region4.x4_ps F p s
    UnitConverter.fromSIunit_vx F u (← F.div (F.mul xs vV) (F.add (F.mul xs vV) (F.mul (F.sub (Num.ofInt 1) xs) vL)))
  else do
    warn "pressure %f out of range"
    pure Num.nan

/-- pyXSteam/XSteam.py:2425-2505 -/
noncomputable def pmelt_t (F : FP) (u : UnitSystem) (t : Num) (hint : PyVal) : Py Num := do
  let T ← UnitConverter.toSIunit_T F u t
  if hint.isNone then do
    if (T ≥ (F.lit 251.165)) ∧ (T < (F.lit 256.164)) then do
      logError "can't select ice type based on temperature %f, hint required"
      pure Num.nan
    else do
      if (T ≥ (F.lit 256.164)) ∧ (T < (F.lit 273.31)) then do
        logDebug "chose ice type V based on temperature"
        UnitConverter.fromSIunit_p F u (← IAPWS_R14.pmelt_T_iceV F T)
      else do
        if (T ≥ (F.lit 273.31)) ∧ (T < (Num.ofInt 355)) then do
          logDebug "chose ice type VI based on temperature"
          UnitConverter.fromSIunit_p F u (← IAPWS_R14.pmelt_T_iceVI F T)
        else do
          if (T ≥ (Num.ofInt 355)) ∧ (T < (Num.ofInt 751)) then do
            logDebug "chose ice type VII based on temperature"
            UnitConverter.fromSIunit_p F u (← IAPWS_R14.pmelt_T_iceVII F T)
          else do
            warn "temperature %f out of range"
            pure Num.nan
  else do
    if hint.isInt IAPWS_R14.TYPE_ICE_Ih then do
      if (T ≥ (F.lit 251.165)) ∧ (T < (F.lit 273.16)) then do
        UnitConverter.fromSIunit_p F u (← IAPWS_R14.pmelt_T_iceIh F T)
      else do
        warn "temperature %f out of range"
        pure Num.nan
    else do
      if hint.isInt IAPWS_R14.TYPE_ICE_III then do
        if (T ≥ (F.lit 251.165)) ∧ (T < (F.lit 256.164)) then do
          UnitConverter.fromSIunit_p F u (← IAPWS_R14.pmelt_T_iceIII F T)
        else do
          warn "temperature %f out of range"
          pure Num.nan
      else do
        if hint.isInt IAPWS_R14.TYPE_ICE_V then do
          if (T ≥ (F.lit 256.164)) ∧ (T < (F.lit 273.31)) then do
            UnitConverter.fromSIunit_p F u (← IAPWS_R14.pmelt_T_iceV F T)
          else do
            warn "temperature %f out of range"
            pure Num.nan
        else do
          if hint.isInt IAPWS_R14.TYPE_ICE_VI then do
            if (T ≥ (F.lit 273.31)) ∧ (T < (Num.ofInt 355)) then do
              UnitConverter.fromSIunit_p F u (← IAPWS_R14.pmelt_T_iceVI F T)
            else do
              warn "temperature %f out of range"
              pure Num.nan
          else do
            if hint.isInt IAPWS_R14.TYPE_ICE_VII then do
              if (T ≥ (Num.ofInt 355)) ∧ (T < (Num.ofInt 751)) then do
                UnitConverter.fromSIunit_p F u (← IAPWS_R14.pmelt_T_iceVII F T)
              else do
                warn "temperature %f out of range"
                pure Num.nan
            else do
              logError "unknown value for parameter 'hint' %s, can't select ice type"
              Py.raise .value

/-- pyXSteam/XSteam.py:2507-2522 -/
noncomputable def psubl_t (F : FP) (u : UnitSystem) (t : Num) : Py Num := do
  let T ← UnitConverter.toSIunit_T F u t
  if (T ≥ (Num.ofInt 50)) ∧ (T < (F.lit 273.16)) then do
    UnitConverter.fromSIunit_p F u (← IAPWS_R14.psubl_T F T)
  else do
    warn "temperature %f out of range"
    pure Num.nan

end XSteam

namespace XSteam_HW

/-- pyXSteam/XSteam_HW.py:32-36 -/
noncomputable def criticalTemperatur (F : FP) (u : UnitSystem) : Py Num := do
  UnitConverter.fromSIunit_T F u (F.lit Constants.CRITICAL_TEMPERATURE_D20_1992)

/-- pyXSteam/XSteam_HW.py:38-42 -/
noncomputable def criticalPressure (F : FP) (u : UnitSystem) : Py Num := do
  UnitConverter.fromSIunit_p F u (F.lit Constants.CRITICAL_PRESSURE_D20_1992)

/-- pyXSteam/XSteam_HW.py:44-46 -/
noncomputable def criticalDensity (F : FP) (u : UnitSystem) : Py Num := do
  UnitConverter.fromSIunit_p F u (Num.ofInt Constants.CRITICAL_DENSITY_D20_1992)

/-- pyXSteam/XSteam_HW.py:48-73 -/
noncomputable def my_rhoT (F : FP) (u : UnitSystem) (rho : Num) (T : Num) : Py Num := do
  let rho ← UnitConverter.toSIunit_p F u rho
  let T ← UnitConverter.toSIunit_T F u T
  if (T < (F.lit 277.0)) ∨ (T > (F.lit 775.0)) then do
    logError "temperature out of range"
    pure Num.nan
  else do
    warn "input for desity wasn't checked!"
    UnitConverter.fromSIunit_T F u (← IAPWS_R4.myHW_rhoT_R4 F rho T)

/-- pyXSteam/XSteam_HW.py:75-100 -/
noncomputable def tc_rhoT (F : FP) (u : UnitSystem) (rho : Num) (T : Num) : Py Num := do
  let rho ← UnitConverter.toSIunit_p F u rho
  let T ← UnitConverter.toSIunit_T F u T
  if (T < (F.lit 277.0)) ∨ (T > (F.lit 825.0)) then do
    logError "temperature out of range"
    pure Num.nan
  else do
    warn "input for desity wasn't checked!"
    UnitConverter.fromSIunit_tc F u (← IAPWS_R4.tcHW_rhoT_R4 F rho T)

end XSteam_HW

end PyX
