-- Transcribed from the Python source by tools/py2lean.py; see the citation at each definition.
import Verif.Model.Select

set_option linter.unusedVariables false

namespace PyX

open Classical

namespace TransportProperties

/-- pyXSteam/TransportProperties.py:20-20 -/
def my_AllRegions_pT.h0 : List ℚ :=
  [0.5132047, 0.3205656, 0, 0, -0.7782567, 0.1885447]

/-- pyXSteam/TransportProperties.py:21-21 -/
def my_AllRegions_pT.h1 : List ℚ :=
  [0.2151778, 0.7317883, 1.241044, 1.476783, 0, 0]

/-- pyXSteam/TransportProperties.py:22-22 -/
def my_AllRegions_pT.h2 : List ℚ :=
  [-0.2818107, -1.070786, -1.263184, 0, 0, 0]

/-- pyXSteam/TransportProperties.py:23-23 -/
def my_AllRegions_pT.h3 : List ℚ :=
  [0.1778064, 0.460504, 0.2340379, -0.4924179, 0, 0]

/-- pyXSteam/TransportProperties.py:24-24 -/
def my_AllRegions_pT.h4 : List ℚ :=
  [-0.0417661, 0, 0, 0.1600435, 0, 0]

/-- pyXSteam/TransportProperties.py:25-25 -/
def my_AllRegions_pT.h5 : List ℚ :=
  [0, -0.01578386, 0, 0, 0, 0]

/-- pyXSteam/TransportProperties.py:26-26 -/
def my_AllRegions_pT.h6 : List ℚ :=
  [0, 0, 0, -0.003629481, 0, 0]

/-- the code after the branch at line 29.
pyXSteam/TransportProperties.py:45-74 -/
noncomputable def my_AllRegions_pT.rest (F : FP) (p : Num) (T : Num) (rho : Num) : Py Num := do
  let rhos ← F.div rho (F.lit 317.763)
  let Ts ← F.div T (F.lit 647.226)
  if (T > (F.add (Num.ofInt 900) (F.lit 273.15))) ∨ ((T > (F.add (Num.ofInt 600) (F.lit 273.15))) ∧ (p > (Num.ofInt 300))) ∨ ((T > (F.add (Num.ofInt 150) (F.lit 273.15))) ∧ (p > (Num.ofInt 350))) ∨ (p > (Num.ofInt 500)) then do
    warn "Temperature and/or Preasure out of range of validity"
    pure Num.nan
  else do
    let my0 ← F.div (← F.pow Ts (F.lit 0.5)) (F.sub (F.add (F.add (Num.ofInt 1) (← F.div (F.lit 0.978197) Ts)) (← F.div (F.lit 0.579829) (← F.pow Ts (Num.ofInt 2)))) (← F.div (F.lit 0.202354) (← F.pow Ts (Num.ofInt 3))))
    let temp_sum := (Num.ofInt 0)
    let temp_sum ← forRange 0 6 temp_sum fun i temp_sum => do
      let temp_sum := (F.add (F.add (F.add (F.add (F.add (F.add (F.add temp_sum (F.mul (F.lit (← idx my_AllRegions_pT.h0 i)) (← F.pow (F.sub (← F.div (Num.ofInt 1) Ts) (Num.ofInt 1)) (Num.ofInt (i : ℤ))))) (F.mul (F.mul (F.lit (← idx my_AllRegions_pT.h1 i)) (← F.pow (F.sub (← F.div (Num.ofInt 1) Ts) (Num.ofInt 1)) (Num.ofInt (i : ℤ)))) (← F.pow (F.sub rhos (Num.ofInt 1)) (Num.ofInt 1)))) (F.mul (F.mul (F.lit (← idx my_AllRegions_pT.h2 i)) (← F.pow (F.sub (← F.div (Num.ofInt 1) Ts) (Num.ofInt 1)) (Num.ofInt (i : ℤ)))) (← F.pow (F.sub rhos (Num.ofInt 1)) (Num.ofInt 2)))) (F.mul (F.mul (F.lit (← idx my_AllRegions_pT.h3 i)) (← F.pow (F.sub (← F.div (Num.ofInt 1) Ts) (Num.ofInt 1)) (Num.ofInt (i : ℤ)))) (← F.pow (F.sub rhos (Num.ofInt 1)) (Num.ofInt 3)))) (F.mul (F.mul (F.lit (← idx my_AllRegions_pT.h4 i)) (← F.pow (F.sub (← F.div (Num.ofInt 1) Ts) (Num.ofInt 1)) (Num.ofInt (i : ℤ)))) (← F.pow (F.sub rhos (Num.ofInt 1)) (Num.ofInt 4)))) (F.mul (F.mul (F.lit (← idx my_AllRegions_pT.h5 i)) (← F.pow (F.sub (← F.div (Num.ofInt 1) Ts) (Num.ofInt 1)) (Num.ofInt (i : ℤ)))) (← F.pow (F.sub rhos (Num.ofInt 1)) (Num.ofInt 5)))) (F.mul (F.mul (F.lit (← idx my_AllRegions_pT.h6 i)) (← F.pow (F.sub (← F.div (Num.ofInt 1) Ts) (Num.ofInt 1)) (Num.ofInt (i : ℤ)))) (← F.pow (F.sub rhos (Num.ofInt 1)) (Num.ofInt 6))))
      pure temp_sum
    let my1 ← F.exp (F.mul rhos temp_sum)
    let mys := (F.mul my0 my1)
    pure (F.mul mys (F.lit 0.000055071))

/-- pyXSteam/TransportProperties.py:15-74 -/
noncomputable def my_AllRegions_pT (F : FP) (p : Num) (T : Num) : Py Num := do
  if (← RegionSelection.region_pT F p T) = 1 then do
    let rho ← F.div (Num.ofInt 1) (← Region1.v1_pT F p T)
    TransportProperties.my_AllRegions_pT.rest F p T rho
  else do
    if (← RegionSelection.region_pT F p T) = 2 then do
      let rho ← F.div (Num.ofInt 1) (← Region2.v2_pT F p T)
      TransportProperties.my_AllRegions_pT.rest F p T rho
    else do
      if (← RegionSelection.region_pT F p T) = 3 then do
        let hs ← Region3.h3_pT F p T
        let rho ← F.div (Num.ofInt 1) (← Region3.v3_ph F p hs)
        TransportProperties.my_AllRegions_pT.rest F p T rho
      else do
        if (← RegionSelection.region_pT F p T) = 4 then do
          warn "function my_AllRegions_pT is not available in region 4"
          pure Num.nan
        else do
          if (← RegionSelection.region_pT F p T) = 5 then do
            let rho ← F.div (Num.ofInt 1) (← Region5.v5_pT F p T)
            TransportProperties.my_AllRegions_pT.rest F p T rho
          else do
            warn "Region switch returned unknown value"
            pure Num.nan

/-- pyXSteam/TransportProperties.py:82-82 -/
def my_AllRegions_ph.h0 : List ℚ :=
  [0.5132047, 0.3205656, 0, 0, -0.7782567, 0.1885447]

/-- pyXSteam/TransportProperties.py:83-83 -/
def my_AllRegions_ph.h1 : List ℚ :=
  [0.2151778, 0.7317883, 1.241044, 1.476783, 0, 0]

/-- pyXSteam/TransportProperties.py:84-84 -/
def my_AllRegions_ph.h2 : List ℚ :=
  [-0.2818107, -1.070786, -1.263184, 0, 0, 0]

/-- pyXSteam/TransportProperties.py:85-85 -/
def my_AllRegions_ph.h3 : List ℚ :=
  [0.1778064, 0.460504, 0.2340379, -0.4924179, 0, 0]

/-- pyXSteam/TransportProperties.py:86-86 -/
def my_AllRegions_ph.h4 : List ℚ :=
  [-0.0417661, 0, 0, 0.1600435, 0, 0]

/-- pyXSteam/TransportProperties.py:87-87 -/
def my_AllRegions_ph.h5 : List ℚ :=
  [0, -0.01578386, 0, 0, 0, 0]

/-- pyXSteam/TransportProperties.py:88-88 -/
def my_AllRegions_ph.h6 : List ℚ :=
  [0, 0, 0, -0.003629481, 0, 0]

/-- the code after the branch at line 91.
pyXSteam/TransportProperties.py:120-150 -/
noncomputable def my_AllRegions_ph.rest (F : FP) (p : Num) (T : Num) (rho : Num) : Py Num := do
  let rhos ← F.div rho (F.lit 317.763)
  let Ts ← F.div T (F.lit 647.226)
  if (T > (F.add (Num.ofInt 900) (F.lit 273.15))) ∨ ((T > (F.add (Num.ofInt 600) (F.lit 273.15))) ∧ (p > (Num.ofInt 300))) ∨ ((T > (F.add (Num.ofInt 150) (F.lit 273.15))) ∧ (p > (Num.ofInt 350))) ∨ (p > (Num.ofInt 500)) then do
    warn "Temperature and/or Preasure out of range of validity"
    pure Num.nan
  else do
    let my0 ← F.div (← F.pow Ts (F.lit 0.5)) (F.sub (F.add (F.add (Num.ofInt 1) (← F.div (F.lit 0.978197) Ts)) (← F.div (F.lit 0.579829) (← F.pow Ts (Num.ofInt 2)))) (← F.div (F.lit 0.202354) (← F.pow Ts (Num.ofInt 3))))
    let temp_sum := (Num.ofInt 0)
    let temp_sum ← forRange 0 6 temp_sum fun i temp_sum => do
      let temp_sum := (F.add (F.add (F.add (F.add (F.add (F.add (F.add temp_sum (F.mul (F.lit (← idx my_AllRegions_ph.h0 i)) (← F.pow (F.sub (← F.div (Num.ofInt 1) Ts) (Num.ofInt 1)) (Num.ofInt (i : ℤ))))) (F.mul (F.mul (F.lit (← idx my_AllRegions_ph.h1 i)) (← F.pow (F.sub (← F.div (Num.ofInt 1) Ts) (Num.ofInt 1)) (Num.ofInt (i : ℤ)))) (← F.pow (F.sub rhos (Num.ofInt 1)) (Num.ofInt 1)))) (F.mul (F.mul (F.lit (← idx my_AllRegions_ph.h2 i)) (← F.pow (F.sub (← F.div (Num.ofInt 1) Ts) (Num.ofInt 1)) (Num.ofInt (i : ℤ)))) (← F.pow (F.sub rhos (Num.ofInt 1)) (Num.ofInt 2)))) (F.mul (F.mul (F.lit (← idx my_AllRegions_ph.h3 i)) (← F.pow (F.sub (← F.div (Num.ofInt 1) Ts) (Num.ofInt 1)) (Num.ofInt (i : ℤ)))) (← F.pow (F.sub rhos (Num.ofInt 1)) (Num.ofInt 3)))) (F.mul (F.mul (F.lit (← idx my_AllRegions_ph.h4 i)) (← F.pow (F.sub (← F.div (Num.ofInt 1) Ts) (Num.ofInt 1)) (Num.ofInt (i : ℤ)))) (← F.pow (F.sub rhos (Num.ofInt 1)) (Num.ofInt 4)))) (F.mul (F.mul (F.lit (← idx my_AllRegions_ph.h5 i)) (← F.pow (F.sub (← F.div (Num.ofInt 1) Ts) (Num.ofInt 1)) (Num.ofInt (i : ℤ)))) (← F.pow (F.sub rhos (Num.ofInt 1)) (Num.ofInt 5)))) (F.mul (F.mul (F.lit (← idx my_AllRegions_ph.h6 i)) (← F.pow (F.sub (← F.div (Num.ofInt 1) Ts) (Num.ofInt 1)) (Num.ofInt (i : ℤ)))) (← F.pow (F.sub rhos (Num.ofInt 1)) (Num.ofInt 6))))
      pure temp_sum
    let my1 ← F.exp (F.mul rhos temp_sum)
    let mys := (F.mul my0 my1)
    pure (F.mul mys (F.lit 0.000055071))

/-- pyXSteam/TransportProperties.py:77-150 -/
noncomputable def my_AllRegions_ph (F : FP) (p : Num) (h : Num) : Py Num := do
  if (← RegionSelection.region_ph F p h) = 1 then do
    let Ts ← Region1.T1_ph F p h
    let T := Ts
    let rho ← F.div (Num.ofInt 1) (← Region1.v1_pT F p Ts)
    TransportProperties.my_AllRegions_ph.rest F p T rho
  else do
    if (← RegionSelection.region_ph F p h) = 2 then do
      let Ts ← Region2.T2_ph F p h
      let T := Ts
      let rho ← F.div (Num.ofInt 1) (← Region2.v2_pT F p Ts)
      TransportProperties.my_AllRegions_ph.rest F p T rho
    else do
      if (← RegionSelection.region_ph F p h) = 3 then do
        let rho ← F.div (Num.ofInt 1) (← Region3.v3_ph F p h)
        let T ← Region3.T3_ph F p h
        TransportProperties.my_AllRegions_ph.rest F p T rho
      else do
        if (← RegionSelection.region_ph F p h) = 4 then do
          let xs ← Region4.x4_ph F p h
          let (v4v, v4L) ← if p < (F.lit 16.529) then do
            let v4v ← Region2.v2_pT F p (← Region4.T4_p F p)
            let v4L ← Region1.v1_pT F p (← Region4.T4_p F p)
            pure (v4v, v4L)
          else do
            let v4v ← Region3.v3_ph F p (← Region4.h4V_p F p)
            let v4L ← Region3.v3_ph F p (← Region4.h4L_p F p)
            pure (v4v, v4L)
          let rho ← F.div (Num.ofInt 1) (F.add (F.mul xs v4v) (F.mul (F.sub (Num.ofInt 1) xs) v4L))
          let T ← Region4.T4_p F p
          TransportProperties.my_AllRegions_ph.rest F p T rho
        else do
          if (← RegionSelection.region_ph F p h) = 5 then do
            let Ts ← Region5.T5_ph F p h
            let T := Ts
            let rho ← F.div (Num.ofInt 1) (← Region5.v5_pT F p Ts)
            TransportProperties.my_AllRegions_ph.rest F p T rho
          else do
            warn "Region switch returned unknown value"
            pure Num.nan

/-- the code after the branch at line 167.
pyXSteam/TransportProperties.py:181-208 -/
noncomputable def tc_ptrho.rest (F : FP) (T : Num) (rho : Num) : Py Num := do
  let T ← F.div T (F.lit 647.26)
  let rho ← F.div rho (F.lit 317.7)
  let tc0 := (F.mul (← F.pow T (F.lit 0.5)) (F.sub (F.add (F.add (F.lit 0.0102811) (F.mul (F.lit 0.0299621) T)) (F.mul (F.lit 0.0156146) (← F.pow T (Num.ofInt 2)))) (F.mul (F.lit 0.00422464) (← F.pow T (Num.ofInt 3)))))
  let tc1 := (F.add (F.add (Num.neg (F.lit 0.397070)) (F.mul (F.lit 0.400302) rho)) (F.mul (F.lit 1.06) (← F.exp (F.mul (Num.neg (F.lit 0.171587)) (← F.pow (F.add rho (F.lit 2.392190)) (Num.ofInt 2))))))
  let dT := (F.add (Num.fabs (F.sub T (Num.ofInt 1))) (F.lit 0.00308976))
  let Q := (F.add (Num.ofInt 2) (← F.div (F.lit 0.0822994) (← F.pow dT (← F.div (Num.ofInt 3) (Num.ofInt 5)))))
  let s ← if T ≥ (Num.ofInt 1) then do
    let s ← F.div (Num.ofInt 1) dT
    pure s
  else do
    let s ← F.div (F.lit 10.0932) (← F.pow dT (← F.div (Num.ofInt 3) (Num.ofInt 5)))
    pure s
  let tc2 := (F.sub (F.add (F.mul (F.mul (F.add (← F.div (F.lit 0.0701309) (← F.pow T (Num.ofInt 10))) (F.lit 0.0118520)) (← F.pow rho (← F.div (Num.ofInt 9) (Num.ofInt 5)))) (← F.exp (F.mul (F.lit 0.642857) (F.sub (Num.ofInt 1) (← F.pow rho (← F.div (Num.ofInt 14) (Num.ofInt 5))))))) (F.mul (F.mul (F.mul (F.lit 0.00169937) s) (← F.pow rho Q)) (← F.exp (F.mul (← F.div Q (F.add (Num.ofInt 1) Q)) (F.sub (Num.ofInt 1) (← F.pow rho (F.add (Num.ofInt 1) Q))))))) (F.mul (F.lit 1.02) (← F.exp (F.sub (F.mul (Num.neg (F.lit 4.11717)) (← F.pow T (← F.div (Num.ofInt 3) (Num.ofInt 2)))) (← F.div (F.lit 6.17937) (← F.pow rho (Num.ofInt 5)))))))
  pure (F.add (F.add tc0 tc1) tc2)

/-- pyXSteam/TransportProperties.py:153-208 -/
noncomputable def tc_ptrho (F : FP) (p : Num) (T : Num) (rho : Num) : Py Num := do
  if T < (F.lit 273.15) then do
    warn "Temperature out of range of validity"
    pure Num.nan
  else do
    if T < (F.add (Num.ofInt 500) (F.lit 273.15)) then do
      if p > (Num.ofInt 100) then do
        warn "Preasure out of range of validity"
        pure Num.nan
      else do
        TransportProperties.tc_ptrho.rest F T rho
    else do
      if T ≤ (F.add (Num.ofInt 650) (F.lit 273.15)) then do
        if p > (Num.ofInt 70) then do
          warn "Preasure out of range of validity"
          pure Num.nan
        else do
          TransportProperties.tc_ptrho.rest F T rho
      else do
        if p > (Num.ofInt 40) then do
          warn "Preasure out of range of validity"
          pure Num.nan
        else do
          TransportProperties.tc_ptrho.rest F T rho

/-- pyXSteam/TransportProperties.py:211-231 -/
noncomputable def Surface_Tension_T (F : FP) (T : Num) : Py Num := do
  let tc := (F.lit Constants.CRITICAL_TEMPERATURE)
  let B := (F.lit 0.2358)
  let bb := (Num.neg (F.lit 0.625))
  let my := (F.lit 1.256)
  if (T < (F.lit 0.01)) ∨ (T > tc) then do
    warn "Temperature out of range of validity"
    pure Num.nan
  else do
    let tau := (F.sub (Num.ofInt 1) (← F.div T tc))
    pure (F.mul (F.mul B (← F.pow tau my)) (F.add (Num.ofInt 1) (F.mul bb tau)))

end TransportProperties

end PyX
