import Verif.Model.Api
import Verif.Model.Session
import Verif.Props.Units
import Verif.Props.Session
import Verif.Props.RegionCodes
import Verif.Props.Total
import Verif.Spec.Rough
import Verif.Props.T4Ends
import Verif.Props.T4Wet
import Verif.Props.Joint
import Verif.Props.UnitLaw
import Verif.Props.Guards
import Verif.Props.Flow
import Verif.Props.NanOut
import Verif.Props.NanCalls
import Verif.Props.Transport
import Verif.Props.Solvers
import Verif.Props.Potential
import Verif.Props.Saturation
import Verif.Props.RegionPT
import Verif.Props.ApiPotential
import Verif.Props.Derived
import Verif.Props.Rounding
import Verif.Props.IceCurves
import Verif.Props.Borders
import Verif.Props.Defects
import Verif.Props.Stability
import Verif.Props.Backward
import Verif.Props.Dispatch
import Verif.Props.Monotone
import Verif.Spec.RegionPH
import Verif.Lemmas.Cells
import Verif.Lemmas.CellsData
import Verif.Props.Phases
import Verif.Props.RegionPH
import Verif.Props.RegionPS
import Verif.Lemmas.Back2
import Verif.Lemmas.T2aJob
import Verif.Lemmas.T2aA
import Verif.Lemmas.T2aB
import Verif.Lemmas.T2aC
import Verif.Lemmas.T2aCheck
import Verif.Lemmas.T2bJob
import Verif.Lemmas.T2bA
import Verif.Lemmas.T2bB
import Verif.Lemmas.T2bC
import Verif.Lemmas.T2bD
import Verif.Lemmas.T2bE
import Verif.Lemmas.T2bCheck
import Verif.Lemmas.T2cJob
import Verif.Lemmas.T2cA
import Verif.Lemmas.T2cB
import Verif.Lemmas.T2cC
import Verif.Lemmas.T2cD
import Verif.Lemmas.T2cE
import Verif.Lemmas.T2cF
import Verif.Lemmas.T2cG
import Verif.Lemmas.T2cH
import Verif.Lemmas.T2cCheck
import Verif.Lemmas.T2ph
import Verif.Lemmas.Back2s
import Verif.Lemmas.S2aA
import Verif.Lemmas.S2aB
import Verif.Lemmas.S2aC
import Verif.Lemmas.S2aCheck
import Verif.Lemmas.S2aD
import Verif.Lemmas.S2aE
import Verif.Lemmas.S2aF
import Verif.Lemmas.S2aJob
import Verif.Lemmas.S2bA
import Verif.Lemmas.S2bB
import Verif.Lemmas.S2bC
import Verif.Lemmas.S2bCheck
import Verif.Lemmas.S2bD
import Verif.Lemmas.S2bE
import Verif.Lemmas.S2bJob
import Verif.Lemmas.S2cA
import Verif.Lemmas.S2cB
import Verif.Lemmas.S2cC
import Verif.Lemmas.S2cCheck
import Verif.Lemmas.S2cD
import Verif.Lemmas.S2cE
import Verif.Lemmas.S2cF
import Verif.Lemmas.S2cJob
import Verif.Lemmas.T2ps
import Verif.Props.Backward2
import Verif.Props.Backward3
import Verif.Props.Correlations
import Verif.Props.SaturatedStates
import Verif.Lemmas.Univ
import Verif.Lemmas.P3sat
import Verif.Lemmas.BarsHigh
import Verif.Spec.Sat3
import Verif.Spec.RegionHigh
import Verif.Props.Sat3
import Verif.Props.Wet3
import Verif.Props.WetCalls
import Verif.Props.RegionHigh
import Verif.Props.WetMix
import Verif.Props.Agree
import Verif.Props.Cases
import Verif.Props.Converge
import Verif.Props.Hot
import Verif.Props.Density
import Verif.Props.Density3
import Verif.Props.Refused
import Verif.Props.HsHot
import Verif.Props.Isobar3
import Verif.Props.HsLiquid
import Verif.Props.RoundTrip
import Verif.Props.SatPairs
import Verif.Props.Slopes
import Verif.Props.FloatSat
import Verif.Props.FloatTsat
import Verif.Props.FloatPt
