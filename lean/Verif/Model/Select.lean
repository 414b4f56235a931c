-- Transcribed from the Python source by tools/py2lean.py; see the citation at each definition.
import Verif.Model.Kernels

set_option linter.unusedVariables false

namespace PyX

open Classical

namespace RegionSelection

/-- pyXSteam/RegionSelection.py:16-42 -/
noncomputable def region_pT (F : FP) (p : Num) (T : Num) : Py ℤ := do
  let region_pT_number ← if (T > (F.lit 1073.15)) ∧ (p < (F.lit 50.0)) ∧ (T < (F.lit 2273.15)) ∧ (p > (F.lit 0.000611)) then do
    let region_pT_number : ℤ := 5
    pure region_pT_number
  else do
    let region_pT_number ← if (T ≤ (F.lit 1073.15)) ∧ (T > (F.lit 273.15)) ∧ (p ≤ (Num.ofInt 100)) ∧ (p > (F.lit 0.000611)) then do
      let region_pT_number ← if T > (F.lit 623.15) then do
        let region_pT_number ← if p > (← RegionBorders.B23p_T F T) then do
          let region_pT_number : ℤ := 3
          let region_pT_number ← if T < (F.lit 647.096) then do
            let ps ← Region4.p4_T F T
            let region_pT_number ← if (Num.fabs (F.sub p ps)) < (F.lit 0.00001) then do
              let region_pT_number : ℤ := 4
              pure region_pT_number
            else do
              pure region_pT_number
            pure region_pT_number
          else do
            pure region_pT_number
          pure region_pT_number
        else do
          let region_pT_number : ℤ := 2
          pure region_pT_number
        pure region_pT_number
      else do
        let ps ← Region4.p4_T F T
        let region_pT_number ← if (Num.fabs (F.sub p ps)) < (F.lit 0.00001) then do
          let region_pT_number : ℤ := 4
          pure region_pT_number
        else do
          let region_pT_number ← if p > ps then do
            let region_pT_number : ℤ := 1
            pure region_pT_number
          else do
            let region_pT_number : ℤ := 2
            pure region_pT_number
          pure region_pT_number
        pure region_pT_number
      pure region_pT_number
    else do
      warn "Temperature outside valid area"
      let region_pT_number : ℤ := 0
      pure region_pT_number
    pure region_pT_number
  pure region_pT_number

/-- the code after the branch at line 55.
pyXSteam/RegionSelection.py:59-111 -/
noncomputable def region_ph.rest (F : FP) (p : Num) (h : Num) : Py ℤ := do
  if p < (F.lit 16.5292) then do
    let Ts ← Region4.T4_p F p
    let hL := (F.add (F.add (F.mul (F.lit 109.6635) (← F.log p)) (F.mul (F.lit 40.3481) p)) (F.lit 734.58))
    let hL ← if (Num.fabs (F.sub h hL)) < (Num.ofInt 100) then do
      let hL ← Region1.h1_pT F p Ts
      pure hL
    else do
      pure hL
    if h ≤ hL then do
      pure 1
    else do
      let hV := (F.add (F.sub (F.mul (F.lit 45.1768) (← F.log p)) (F.mul (F.lit 20.158) p)) (F.lit 2804.4))
      let hV ← if (Num.fabs (F.sub h hV)) < (Num.ofInt 50) then do
        let hV ← Region2.h2_pT F p Ts
        pure hV
      else do
        pure hV
      if h < hV then do
        pure 4
      else do
        if h < (Num.ofInt 4000) then do
          pure 2
        else do
          let h_45 ← Region2.h2_pT F p (F.lit 1073.15)
          if h ≤ h_45 then do
            pure 2
          else do
            if p > (Num.ofInt 10) then do
              warn "Preasure outside valid area"
              pure 0
            else do
              let h_5u ← Region5.h5_pT F p (F.lit 2273.15)
              if h < h_5u then do
                pure 5
              else do
                warn "Enthalpy outside valid area"
                pure 0
  else do
    if h < (← Region1.h1_pT F p (F.lit 623.15)) then do
      pure 1
    else do
      if h < (← Region2.h2_pT F p (← RegionBorders.B23T_p F p)) then do
        if p > (← RegionBorders.p3sat_h F h) then do
          pure 3
        else do
          pure 4
      else do
        if h < (← Region2.h2_pT F p (F.lit 1073.15)) then do
          pure 2
        else do
          warn "Preasure outside valid area"
          pure 0

/-- pyXSteam/RegionSelection.py:45-111 -/
noncomputable def region_ph (F : FP) (p : Num) (h : Num) : Py ℤ := do
  if (p < (F.lit 0.000611657)) ∨ (p > (Num.ofInt 100)) then do
    warn "Preasure outside valid area"
    pure 0
  else do
    if h < (F.add (F.mul (F.lit 0.963) p) (F.lit 2.2)) then do
      if h < (← Region1.h1_pT F p (F.lit 273.15)) then do
        warn "Enthalpy outside valid area"
        pure 0
      else do
        RegionSelection.region_ph.rest F p h
    else do
      RegionSelection.region_ph.rest F p h

/-- pyXSteam/RegionSelection.py:114-151 -/
noncomputable def region_ps (F : FP) (p : Num) (s : Num) : Py ℤ := do
  if (← ((do if p < (F.lit 0.000611657) then pure true else (do if p > (Num.ofInt 100) then pure true else (do if s < (Num.ofInt 0) then pure true else (do pure (decide (s > (← Region5.s5_pT F p (F.lit 2273.15)))))))) : Py Bool)) = true then do
    warn "Preasure or Entropy outside valid area"
    pure 0
  else do
    if s > (← Region2.s2_pT F p (F.lit 1073.15)) then do
      if p ≤ (Num.ofInt 10) then do
        pure 5
      else do
        warn "Preasure outside valid area"
        pure 0
    else do
      let ss ← if p > (F.lit 16.529) then do
        let ss ← Region2.s2_pT F p (← RegionBorders.B23T_p F p)
        pure ss
      else do
        let ss ← Region2.s2_pT F p (← Region4.T4_p F p)
        pure ss
      if s > ss then do
        pure 2
      else do
        let ss ← Region1.s1_pT F p (F.lit 623.15)
        if (p > (F.lit 16.529)) ∧ (s > ss) then do
          if p > (← RegionBorders.p3sat_s F s) then do
            pure 3
          else do
            pure 4
        else do
          if (← ((do if p < (F.lit 16.529) then (do pure (decide (s > (← Region1.s1_pT F p (← Region4.T4_p F p))))) else pure false) : Py Bool)) = true then do
            pure 4
          else do
            if (← ((do if p > (F.lit 0.000611657) then (do pure (decide (s > (← Region1.s1_pT F p (F.lit 273.15))))) else pure false) : Py Bool)) = true then do
              pure 1
            else do
              pure 1

/-- pyXSteam/RegionSelection.py:154-284 -/
noncomputable def region_hs (F : FP) (h : Num) (s : Num) : Py ℤ := do
  if s < (Num.neg (F.lit 0.0001545495919)) then do
    warn "Entropy outside valid area"
    pure 0
  else do
    let hMin := (F.mul (← F.div (F.sub (Num.neg (F.lit 0.0415878)) (F.lit 2500.89262)) (F.sub (Num.neg (F.lit 0.00015455)) (F.lit 9.155759))) s)
    if (s < (F.lit 9.155759395)) ∧ (h < hMin) then do
      warn "Entalpy or Entropy outside valid area"
      pure 0
    else do
      if (s ≥ (Num.neg (F.lit 0.0001545495919))) ∧ (s ≤ (F.lit 3.77828134)) then do
        if h < (← Region4.h4_s F s) then do
          pure 4
        else do
          if s < (F.lit 3.397782955) then do
            let TMax ← Region1.T1_ps F (Num.ofInt 100) s
            let hMax ← Region1.h1_pT F (Num.ofInt 100) TMax
            if h < hMax then do
              pure 1
            else do
              warn "Entalpy outside valid area"
              pure 0
          else do
            let hB ← RegionBorders.hB13_s F s
            if h < hB then do
              pure 1
            else do
              let TMax ← Region3.T3_ps F (Num.ofInt 100) s
              let vmax ← Region3.v3_ps F (Num.ofInt 100) s
              let hMax ← Region3.h3_rhoT F (← F.div (Num.ofInt 1) vmax) TMax
              if h < hMax then do
                pure 3
              else do
                warn "Entalpy outside valid area"
                pure 0
      else do
        if (s ≥ (F.lit 5.260578707)) ∧ (s ≤ (F.lit 11.9212156897728)) then do
          if s > (F.lit 9.155759395) then do
            let Tmin ← Region2.T2_ps F (F.lit 0.000611) s
            let hMin ← Region2.h2_pT F (F.lit 0.000611) Tmin
            let hMax := (F.add (F.add (F.sub (F.add (F.mul (Num.neg (F.lit 0.07554022)) (← F.pow s (Num.ofInt 4))) (F.mul (F.lit 3.341571) (← F.pow s (Num.ofInt 3)))) (F.mul (F.lit 55.42151) (← F.pow s (Num.ofInt 2)))) (F.mul (F.lit 408.515) s)) (F.lit 3031.338))
            if (h > hMin) ∧ (h < hMax) then do
              pure 2
            else do
              warn "Entalpy outside valid area"
              pure 0
          else do
            let hV ← Region4.h4_s F s
            if h < hV then do
              pure 4
            else do
              let hMax ← if s < (F.lit 6.04048367171238) then do
                let TMax ← Region2.T2_ps F (Num.ofInt 100) s
                let hMax ← Region2.h2_pT F (Num.ofInt 100) TMax
                pure hMax
              else do
                let hMax := (F.sub (F.add (F.sub (F.add (F.mul (Num.neg (F.lit 2.988734)) (← F.pow s (Num.ofInt 4))) (F.mul (F.lit 121.4015) (← F.pow s (Num.ofInt 3)))) (F.mul (F.lit 1805.15) (← F.pow s (Num.ofInt 2)))) (F.mul (F.lit 11720.16) s)) (F.lit 23998.33))
                pure hMax
              if h < hMax then do
                pure 2
              else do
                warn "Entalpy outside valid area"
                pure 0
        else do
          if (s ≥ (F.lit 3.77828134)) ∧ (s ≤ (F.lit 4.41202148223476)) then do
            let hL ← Region4.h4_s F s
            if h < hL then do
              pure 4
            else do
              let TMax ← Region3.T3_ps F (Num.ofInt 100) s
              let vmax ← Region3.v3_ps F (Num.ofInt 100) s
              let hMax ← Region3.h3_rhoT F (← F.div (Num.ofInt 1) vmax) TMax
              if h < hMax then do
                pure 3
              else do
                warn "Entalpy outside valid area"
                pure 0
          else do
            if (s ≥ (F.lit 4.41202148223476)) ∧ (s ≤ (F.lit 5.260578707)) then do
              let hV ← Region4.h4_s F s
              if h < hV then do
                pure 4
              else do
                if s ≤ (F.lit 5.048096828) then do
                  let TMax ← Region3.T3_ps F (Num.ofInt 100) s
                  let vmax ← Region3.v3_ps F (Num.ofInt 100) s
                  let hMax ← Region3.h3_rhoT F (← F.div (Num.ofInt 1) vmax) TMax
                  if h < hMax then do
                    pure 3
                  else do
                    warn "Entalpy outside valid area"
                    pure 0
                else do
                  if h > (F.lit 2812.942061) then do
                    if s > (F.lit 5.09796573397125) then do
                      let TMax ← Region2.T2_ps F (Num.ofInt 100) s
                      let hMax ← Region2.h2_pT F (Num.ofInt 100) TMax
                      if h < hMax then do
                        pure 2
                      else do
                        warn "Entalpy outside valid area"
                        pure 0
                    else do
                      warn "Entropy outside valid area"
                      pure 0
                  else do
                    if h < (F.lit 2563.592004) then do
                      pure 3
                    else do
                      let Tact ← RegionBorders.TB23_hs F h s
                      let pact ← Region2.p2_hs F h s
                      let pBound ← RegionBorders.B23p_T F Tact
                      if pact > pBound then do
                        pure 3
                      else do
                        pure 2
            else do
              warn "Entropy and Entalpy outside valid area"
              pure 0

/-- the code after the branch at line 296.
pyXSteam/RegionSelection.py:335-336 -/
noncomputable def region_prho.rest (F : FP)  : Py ℤ := do
  warn "Preasure and Density outside valid area"
  pure 0

/-- pyXSteam/RegionSelection.py:287-336 -/
noncomputable def region_prho (F : FP) (p : Num) (rho : Num) : Py ℤ := do
  let v ← F.div (Num.ofInt 1) rho
  if (p < (F.lit 0.000611657)) ∨ (p > (Num.ofInt 100)) then do
    warn "Preasure outside valid area"
    pure 0
  else do
    if p < (F.lit 16.5292) then do
      if v < (← Region1.v1_pT F p (F.lit 273.15)) then do
        warn "Specific volume outside valid area"
        pure 0
      else do
        if v ≤ (← Region1.v1_pT F p (← Region4.T4_p F p)) then do
          pure 1
        else do
          if v < (← Region2.v2_pT F p (← Region4.T4_p F p)) then do
            pure 4
          else do
            if v ≤ (← Region2.v2_pT F p (F.lit 1073.15)) then do
              pure 2
            else do
              if p > (Num.ofInt 10) then do
                warn "Preasure outside valid area"
                pure 0
              else do
                if v ≤ (← Region5.v5_pT F p (F.lit 2073.15)) then do
                  pure 5
                else do
                  RegionSelection.region_prho.rest F 
    else do
      if v < (← Region1.v1_pT F p (F.lit 273.15)) then do
        warn "Specific volume outside valid area"
        pure 0
      else do
        if v < (← Region1.v1_pT F p (F.lit 623.15)) then do
          pure 1
        else do
          if v < (← Region2.v2_pT F p (← RegionBorders.B23T_p F p)) then do
            if p > (F.lit 22.064) then do
              pure 3
            else do
              if (← ((do if v < (← Region3.v3_ph F p (← Region4.h4L_p F p)) then pure true else (do pure (decide (v > (← Region3.v3_ph F p (← Region4.h4V_p F p)))))) : Py Bool)) = true then do
                pure 3
              else do
                pure 4
          else do
            if v < (← Region2.v2_pT F p (F.lit 1073.15)) then do
              pure 2
            else do
              RegionSelection.region_prho.rest F 

end RegionSelection

end PyX
