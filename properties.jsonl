{"id": "C01", "title": "Unit conversions are mutually inverse", "statement": "For every quantity q (p,T,h,v,s,u,Cp,Cv,w,tc,st,my) and every unit system, converting a finite value to SI and back, or from SI and back, gives the original value (in exact arithmetic), and no conversion of a finite value raises.", "quantifier": "all three unit systems, all 12 unit-carrying quantities, all real values", "why_tests_cant": "the claim is about every real input; a test sees finitely many values", "anchors": ["pyXSteam/UnitConverter.py: UnitConverter.toSIunit_*, UnitConverter.fromSIunit_*"]}
{"id": "C02", "title": "Unit conversions are total and propagate NaN", "statement": "In any floating point arithmetic, every to/from-SI conversion of a unit-carrying quantity returns a value (no exception, no log output), and maps NaN to NaN.", "quantifier": "all unit systems, all quantities, all floats including NaN and infinities, all rounding behaviours with non-zero literals", "why_tests_cant": "quantifies over every float and every arithmetic", "anchors": ["pyXSteam/UnitConverter.py: UnitConverter.*SIunit_*"]}
{"id": "C03", "title": "Vapour fraction conversion rejects exactly the values outside [0,1]", "statement": "toSIunit_x/fromSIunit_x/toSIunit_vx/fromSIunit_vx return their argument unchanged when 0<=x<=1; for every other float (NaN included) they log one error and raise ValueError.", "quantifier": "all floats, all unit systems", "why_tests_cant": "boundary behaviour for every float incl. NaN/inf", "anchors": ["pyXSteam/UnitConverter.py: UnitConverter.toSIunit_x, fromSIunit_x, toSIunit_vx, fromSIunit_vx"]}
{"id": "C04", "title": "Unit system selection accepts exactly the three documented constants and fails atomically", "statement": "Setting the unit system succeeds exactly for the ints 0,1,2 (not True, 1.0, '1', None); any other object raises ValueError and the converter keeps its previous unit system.", "quantifier": "all Python objects of the modelled kinds, all previous states, all sequences of set operations", "why_tests_cant": "all objects and all histories", "anchors": ["pyXSteam/UnitConverter.py: UnitConverter.set_unitSystem, UnitConverter.__init__"]}
{"id": "C05", "title": "The unit system only changes the units", "statement": "For every API method, running it under unit system u equals converting the arguments with toSIunit, running the BARE method, and converting the result with fromSIunit; compound methods (rho_*, tc_*, pr_*, st_p, my_ps) agree in exact arithmetic.", "quantifier": "all API methods covered, all unit systems, all float arguments, all arithmetics", "why_tests_cant": "relates three configurations on every input", "anchors": ["pyXSteam/XSteam.py: XSteam.*", "pyXSteam/UnitConverter.py: UnitConverter"]}
{"id": "C06", "title": "Calls are pure: history, order and other instances do not matter", "statement": "In every history of constructing converters, changing unit systems (successfully or not) and calling API methods on several instances, the result and log records of a call depend only on the method, its arguments and the unit system last successfully set on that instance.", "quantifier": "all finite histories over any number of instances", "why_tests_cant": "quantifies over all histories/interleavings", "anchors": ["pyXSteam/XSteam.py: XSteam", "pyXSteam/UnitConverter.py: UnitConverter.set_unitSystem"]}
{"id": "C07", "title": "Region classification by (p,T) is sound and complete", "statement": "region_pT never raises for finite p,T handled by its borders and returns 1,2,3,4,5 or 0 exactly according to the IAPWS-IF97 borders as coded (region 5 by the open box, else inside the 273.15<T<=1073.15, 0.000611<p<=100 box split by the B23 line and the saturation line with a 1e-5 MPa band); everything else is 0 with a warning.", "quantifier": "all floats p,T", "why_tests_cant": "all points of the plane incl. borders and NaN", "anchors": ["pyXSteam/RegionSelection.py: region_pT"]}
{"id": "C08", "title": "Region classification by (p,h) only yields documented codes", "statement": "region_ph returns only 0..5; 0 is always accompanied by a warning; pressures outside [0.000611657,100] give 0; region 3 occurs only for p>=16.5292, region 5 only for p<=10.", "quantifier": "all floats p,h, all arithmetics", "why_tests_cant": "all inputs, incl. NaN", "anchors": ["pyXSteam/RegionSelection.py: region_ph"]}
{"id": "C09", "title": "Region classification by (p,s) only yields documented codes", "statement": "region_ps returns only 0..5; pressures outside the range or negative entropy give 0 with a warning; region 5 only for p<=10, region 3 only for p>16.529.", "quantifier": "all floats p,s, all arithmetics", "why_tests_cant": "all inputs", "anchors": ["pyXSteam/RegionSelection.py: region_ps"]}
{"id": "C10", "title": "Region classification by (h,s) never yields region 5", "statement": "region_hs returns only 0,1,2,3,4, so the 'not available in region 5' branches of t_hs and p_hs are unreachable; code 0 always logs a warning.", "quantifier": "all floats h,s, all arithmetics", "why_tests_cant": "all inputs", "anchors": ["pyXSteam/RegionSelection.py: region_hs", "pyXSteam/XSteam.py: XSteam.t_hs, XSteam.p_hs"]}
{"id": "C11", "title": "Region classification by (p,rho) only yields documented codes", "statement": "region_prho returns only 0..5 and 0 always logs a warning; pressures outside the range give 0.", "quantifier": "all floats p,rho, all arithmetics", "why_tests_cant": "all inputs", "anchors": ["pyXSteam/RegionSelection.py: region_prho"]}
{"id": "C12", "title": "Saturation functions answer exactly inside their range", "statement": "tsat_p, hV_p, hL_p, vV_p, ... (all *_p saturation functions), psat_t and all *_t saturation functions, tsat_s, psat_s return NaN plus a warning (uV_p: NaN without warning) exactly when the SI argument is outside the open validity interval; NaN input is outside.", "quantifier": "all floats, all unit systems, all arithmetics", "why_tests_cant": "all inputs incl. NaN/inf and borders", "anchors": ["pyXSteam/XSteam.py: tsat_p, tsat_s, psat_s, psat_t, hV_p, hL_p, hV_t, hL_t, vV_p, vL_p, vV_t, vL_t, sV_p, sL_p, sV_t, sL_t, uV_p, uL_p, uV_t, uL_t, CpV_p, CpL_p, CpV_t, CpL_t, CvV_p, CvL_p, CvV_t, CvL_t, wV_p, wL_p, wV_t, wL_t"]}
{"id": "C13", "title": "Single-phase (p,T) functions refuse the saturation line", "statement": "Whenever region_pT classifies the point as region 4, h_pt, v_pt, s_pt, u_pt, Cp_pt, Cv_pt, w_pt and my_pt return NaN with a warning; when it classifies it as 0 they also return NaN with a warning.", "quantifier": "all p,t, unit systems, arithmetics", "why_tests_cant": "all inputs", "anchors": ["pyXSteam/XSteam.py: h_pt, v_pt, s_pt, u_pt, Cp_pt, Cv_pt, w_pt, my_pt"]}
{"id": "C14", "title": "Wet steam enthalpy interpolates between the saturated values", "statement": "For p in the saturation range and 0<=x<=1, h_px(p,x) = hL_p(p) + x (hV_p(p)-hL_p(p)) in exact arithmetic: h_px(p,0)=hL_p(p), h_px(p,1)=hV_p(p); x outside [0,1] or NaN raises ValueError in any arithmetic.", "quantifier": "all p,x, unit systems", "why_tests_cant": "all inputs", "anchors": ["pyXSteam/XSteam.py: h_px, h_tx, hL_p, hV_p"]}
{"id": "C15", "title": "h_px and h_tx never return NaN below the saturation range but a sentinel", "statement": "For p at or below the triple point pressure (or NaN), and for p in [22.06395,22.064), h_px returns the sentinel -99999 (in user units) instead of NaN, for every x in [0,1].", "quantifier": "all such p and x, all unit systems, exact arithmetic", "why_tests_cant": "all inputs", "anchors": ["pyXSteam/XSteam.py: h_px, h_tx", "pyXSteam/Regions.py: Region4.h4L_p, Region4.h4V_p"]}
{"id": "C16", "title": "Vapour fractions are fractions", "statement": "x_ph and x_ps, whenever they return a non-NaN value, return one in [0,1]; with saturated values hL<hV the result is 0 below hL, 1 above hV, and (h-hL)/(hV-hL) between, monotone in h.", "quantifier": "all p,h,s, unit systems, arithmetics", "why_tests_cant": "all inputs", "anchors": ["pyXSteam/XSteam.py: x_ph, x_ps, vx_ph, vx_ps", "pyXSteam/Regions.py: Region4.x4_ph, Region4.x4_ps"]}
{"id": "C17", "title": "Density is the reciprocal of specific volume", "statement": "rhoV_p, rhoL_p, rhoV_t, rhoL_t, rho_pt, rho_ph, rho_ps return exactly 1/(corresponding v function) in the user's unit system; they are NaN when v is NaN and raise only if v raises or is 0.", "quantifier": "all inputs, unit systems, arithmetics", "why_tests_cant": "all inputs", "anchors": ["pyXSteam/XSteam.py: rhoV_p, rhoL_p, rhoV_t, rhoL_t, rho_pt, rho_ph, rho_ps"]}
{"id": "C18", "title": "Saturation temperature and pressure are inverse functions", "statement": "In exact arithmetic tsat_p(psat_t(t)) = t for every t whose saturation pressure lies in tsat_p's range, and psat_t(tsat_p(p)) = p for every p in tsat_p's range, in every unit system.", "quantifier": "all t, all p in range, all unit systems", "why_tests_cant": "an identity over an interval of reals", "anchors": ["pyXSteam/XSteam.py: tsat_p, psat_t", "pyXSteam/Regions.py: Region4.p4_T, Region4.T4_p"]}
{"id": "C19", "title": "The saturation line is strictly increasing", "statement": "psat_t is strictly increasing in t and tsat_p is strictly increasing in p on their ranges (exact arithmetic).", "quantifier": "all pairs of points", "why_tests_cant": "universally quantified over pairs of reals", "anchors": ["pyXSteam/XSteam.py: tsat_p, psat_t", "pyXSteam/Regions.py: Region4.p4_T, Region4.T4_p"]}
{"id": "C20", "title": "Region 1 properties come from one Gibbs potential", "statement": "There is one function g(p,T) such that in region 1 v, s, h, u, cp, cv, w returned by the kernels equal the thermodynamic derivatives: v=dg/dp, s=-dg/dT, h=g+Ts, u=h-pv, cp=dh/dT (in kJ, MPa units), cv and w by the standard formulas.", "quantifier": "all p,T with T != 0 and non-degenerate reduced temperature, exact arithmetic", "why_tests_cant": "analytic identity over a continuum", "anchors": ["pyXSteam/Regions.py: Region1.v1_pT, h1_pT, u1_pT, s1_pT, Cp1_pT, Cv1_pT, w1_pT"]}
{"id": "C21", "title": "Region 2 properties come from one Gibbs potential", "statement": "As C20 for region 2 (ideal gas plus residual part).", "quantifier": "all p>0, T>0, exact arithmetic", "why_tests_cant": "analytic identity over a continuum", "anchors": ["pyXSteam/Regions.py: Region2.v2_pT, h2_pT, u2_pT, s2_pT, Cp2_pT, Cv2_pT, w2_pT"]}
{"id": "C22", "title": "Region 5 properties come from one Gibbs potential", "statement": "As C20 for region 5 (ideal gas plus residual part).", "quantifier": "all p>0, T>0, exact arithmetic", "why_tests_cant": "analytic identity over a continuum", "anchors": ["pyXSteam/Regions.py: Region5.h5_pT, v5_pT, u5_pT, Cp5_pT, s5_pT, Cv5_pT, w5_pT"]}
{"id": "C23", "title": "Region 3 properties come from one Helmholtz potential", "statement": "There is one f(rho,T) such that in region 3 p=rho^2 df/drho, s=-df/dT, u=f+Ts, h=u+p/rho, cv=du/dT, and cp, w by the standard formulas.", "quantifier": "all rho>0, T>0, exact arithmetic", "why_tests_cant": "analytic identity over a continuum", "anchors": ["pyXSteam/Regions.py: Region3.p3_rhoT, u3_rhoT, h3_rhoT, s3_rhoT, Cp3_rhoT, Cv3_rhoT, w3_rhoT"]}
{"id": "C24", "title": "Enthalpy, internal energy, pressure and volume are consistent at the API", "statement": "Wherever h_pt, u_pt and v_pt return numbers in regions 1, 2 and 5 (SI units, exact arithmetic), h_pt = u_pt + 1000 p v_pt.", "quantifier": "all p,t in these regions, all unit systems after conversion", "why_tests_cant": "identity over a continuum", "anchors": ["pyXSteam/XSteam.py: h_pt, u_pt, v_pt"]}
{"id": "C25", "title": "Iterative solvers always stop", "statement": "In any finite-precision arithmetic (finitely many floats, monotone correctly rounded midpoint), the bisection loops of T1_prho, T2_prho, T3_prho, T5_prho, h3_pT, T5_ph, T5_ps, h4L_p, h4V_p and the heavy water viscosity function terminate for every input, and every call of a public method other than t_hs, p_hs, tc_hs terminates.", "quantifier": "all float inputs, all finite-grid arithmetics", "why_tests_cant": "termination for every input cannot be tested", "anchors": ["pyXSteam/Regions.py: Region1.T1_prho, Region2.T2_prho, Region3.h3_pT, Region3.T3_prho, Region4.h4L_p, Region4.h4V_p, Region5.T5_ph, Region5.T5_ps, Region5.T5_prho"]}
{"id": "C26", "title": "A solver that stops without warning has met its tolerance", "statement": "If a bisection solver returns a value without logging the 'did not converge' warning, the residual at the returned value is at most its tolerance (or NaN), and the returned value lies in the initial bracket.", "quantifier": "all inputs, all arithmetics", "why_tests_cant": "all inputs and numbers of iterations", "anchors": ["pyXSteam/Regions.py: Region1.T1_prho, Region2.T2_prho, Region3.h3_pT, Region3.T3_prho, Region5.T5_ph, Region5.T5_ps, Region5.T5_prho"]}
{"id": "C27", "title": "p_hrho ignores its arguments", "statement": "p_hrho(h,rho) with rho>0 never returns anything but 10 MPa expressed in user units: its loop stops in the first pass. (Defect: the documented inverse property fails.)", "quantifier": "all h,rho, unit systems, arithmetics", "why_tests_cant": "states that no input gives another answer", "anchors": ["pyXSteam/XSteam.py: p_hrho"]}
{"id": "C28", "title": "Region 5 density inversion uses the region 2 equation", "statement": "The temperature returned for (p,rho) in region 5 solves the region-2 density equation, so h_prho in region 5 does not invert rho(p,T) of region 5. (Defect.)", "quantifier": "all p,rho", "why_tests_cant": "all inputs", "anchors": ["pyXSteam/Regions.py: Region5.T5_prho"]}
{"id": "C29", "title": "t_hs/p_hs raise UnboundLocalError on a documented-valid strip", "statement": "For every (h,s) classified as region 4 with 9.15546555571324 <= s < 9.155759395, t_hs and p_hs raise UnboundLocalError. (Defect.)", "quantifier": "all h,s in the strip, all unit systems", "why_tests_cant": "all points of a strip", "anchors": ["pyXSteam/Regions.py: Region4.T4_hs", "pyXSteam/XSteam.py: t_hs, p_hs"]}
{"id": "C30", "title": "Melting pressure selects the ice type by temperature and hint exactly as documented", "statement": "pmelt_t without hint: NaN+error in the ambiguous range, ice V/VI/VII by range, NaN+warning elsewhere; with a hint: only that ice's curve on its range, else NaN+warning; an unknown hint always raises ValueError.", "quantifier": "all t, all hint objects, unit systems, arithmetics", "why_tests_cant": "all inputs", "anchors": ["pyXSteam/XSteam.py: pmelt_t"]}
{"id": "C31", "title": "Melting and sublimation curves are anchored, positive and monotone", "statement": "In exact arithmetic: the ice Ih curve passes through the triple point and is strictly decreasing in T, ice III/V/VI curves are strictly increasing on T>0 and pass through their reference points; ice VII passes through its reference point; psubl_t and ice VII pressures are positive.", "quantifier": "all T>0", "why_tests_cant": "all reals", "anchors": ["pyXSteam/IAPWS_R14.py: pmelt_T_iceIh, pmelt_T_iceIII, pmelt_T_iceV, pmelt_T_iceVI, pmelt_T_iceVII, psubl_T", "pyXSteam/XSteam.py: pmelt_t, psubl_t"]}
{"id": "C32", "title": "Surface tension is non-negative, zero at the critical point, NaN outside", "statement": "st_t returns NaN with a warning exactly when the temperature is below 0.01 K or above the critical temperature; inside, in exact arithmetic it is >= 0, 0 at the critical temperature, positive below and strictly decreasing on the liquid range.", "quantifier": "all t, unit systems", "why_tests_cant": "all reals", "anchors": ["pyXSteam/XSteam.py: st_t, st_p", "pyXSteam/TransportProperties.py: Surface_Tension_T"]}
{"id": "C33", "title": "Viscosity is positive and range-checked", "statement": "my_pt returns NaN+warning outside the validity area; inside, in exact arithmetic, any returned finite value is positive.", "quantifier": "all p,t", "why_tests_cant": "all inputs", "anchors": ["pyXSteam/XSteam.py: my_pt, my_ph", "pyXSteam/TransportProperties.py: my_AllRegions_pT, my_AllRegions_ph"]}
{"id": "C34", "title": "Thermal conductivity is range-checked", "statement": "tc_ptrho-based functions return NaN with a warning exactly for T<273.15 or pressures above the temperature-dependent limit.", "quantifier": "all inputs, arithmetics", "why_tests_cant": "all inputs", "anchors": ["pyXSteam/TransportProperties.py: tc_ptrho", "pyXSteam/XSteam.py: tc_pt, tc_ph"]}
{"id": "C35", "title": "NaN in, NaN out", "statement": "For every (p,t)/(p)/(t)-style API method a NaN argument never produces a finite number: the result is NaN or an exception (exceptions to the rule: h_px, h_tx, p_hrho).", "quantifier": "all other arguments, unit systems, arithmetics", "why_tests_cant": "all combinations", "anchors": ["pyXSteam/XSteam.py: XSteam.*"]}
{"id": "C36", "title": "No table index is ever out of range", "statement": "No API call raises IndexError, for any input in any arithmetic.", "quantifier": "all API methods, all inputs, all arithmetics", "why_tests_cant": "all inputs/paths", "anchors": ["pyXSteam/Regions.py: all loops over coefficient tables", "pyXSteam/XSteam.py: XSteam.*"]}
{"id": "C37", "title": "Composition laws of derived functions", "statement": "my_ps(p,s) = my_ph(p,h_ps(p,s)); pr_pt = 1000 Cp_pt my_pt / tc_pt in SI, i.e. the Prandtl number is the same in every unit system up to exact arithmetic.", "quantifier": "all inputs, unit systems", "why_tests_cant": "all inputs", "anchors": ["pyXSteam/XSteam.py: my_ps, pr_pt, pr_ph"]}
{"id": "C38", "title": "Wet steam mixing rule", "statement": "In region 4, v_ph, u_ph, s_ph equal the linear mixture x*sat.vapour+(1-x)*sat.liquid with x = x_ph(p,h), hence lie between the saturated values whenever these are ordered.", "quantifier": "all p,h in region 4, exact arithmetic", "why_tests_cant": "all inputs", "anchors": ["pyXSteam/XSteam.py: v_ph, s_ph, u_ph, v_ps, h_ps"]}
{"id": "C39", "title": "Heavy water functions", "statement": "my_rhoT and tc_rhoT return NaN plus an error outside [277,775] K / [277,825] K; inside, the SI heavy-water viscosity is positive for every density (exact arithmetic). They use pressure/temperature conversions for density/viscosity (defect in non-SI systems).", "quantifier": "all rho,T, unit systems", "why_tests_cant": "all inputs", "anchors": ["pyXSteam/XSteam_HW.py: my_rhoT, tc_rhoT", "pyXSteam/IAPWS_R4.py: myHW_rhoT_R4, tcHW_rhoT_R4"]}
{"id": "C40", "title": "Exposed constants", "statement": "critical/triple point functions return the SI constants converted to the user's unit system; converting them back gives the constants; criticalDensity is converted as a pressure (defect: wrong by a factor 10 in MKS).", "quantifier": "all unit systems", "why_tests_cant": "relates all configurations exactly", "anchors": ["pyXSteam/XSteam.py: criticalTemperatur, criticalPressure, criticalDensity, triplePointTemperatur, triplePointPressure"]}
{"id": "C41", "title": "The 2/3 boundary equations are mutually consistent", "statement": "B23T_p(B23p_T(T)) = T up to a proved tolerance for every T in [623.15, 863.15], and both are strictly increasing there.", "quantifier": "all T in the interval", "why_tests_cant": "all reals in an interval", "anchors": ["pyXSteam/RegionBorders.py: B23p_T, B23T_p"]}
{"id": "C42", "title": "No result is silently invalid", "statement": "Whenever a (p,t) property method returns NaN because the point is outside the regions or in region 4, at least one warning has been logged.", "quantifier": "all inputs, arithmetics", "why_tests_cant": "all inputs", "anchors": ["pyXSteam/XSteam.py: *_pt"]}
{"id": "C43", "title": "Rounding error of unit round trips is bounded", "statement": "In any arithmetic with relative error eps per operation, converting to SI and back changes a multiplicative quantity by a relative error of at most (1+eps)^2/(1-eps)^2 - 1 (literal exactly representable or not).", "quantifier": "all values, unit systems, all eps<1", "why_tests_cant": "all floats", "anchors": ["pyXSteam/UnitConverter.py: toSIunit_*, fromSIunit_*"]}
{"id": "C44", "title": "Liquid density at (p,T) is positive / specific volumes are positive", "statement": "In regions 1, 2 and 5, v_pt is positive wherever it is returned (exact arithmetic).", "quantifier": "all p,T in the region", "why_tests_cant": "all reals of a 2-d domain", "anchors": ["pyXSteam/XSteam.py: v_pt", "pyXSteam/Regions.py: Region1.v1_pT, Region2.v2_pT, Region5.v5_pT"]}
{"id": "C45", "title": "t_hs, p_hs and tc_hs always stop", "statement": "In finite-precision arithmetic the two loops of T4_hs, which watch the width of the bracket, terminate, so t_hs, p_hs and tc_hs, and with them every public call, terminate for every input, also where the pressure p3sat_h(h) that starts the search is no pressure at all.", "quantifier": "all float inputs", "why_tests_cant": "termination for every input cannot be tested", "anchors": ["pyXSteam/Regions.py: Region4.T4_hs", "pyXSteam/XSteam.py: t_hs, p_hs, tc_hs"]}
{"id": "C46", "title": "Ice VII is accepted beyond the range of the standard", "statement": "pmelt_t with the ice VII hint accepts temperatures up to 751 K although the melting equation of IAPWS R14-08 ends at 715 K; from 721 K on the returned pressure falls as temperature rises, which the standard's curve never does. (Defect.)", "quantifier": "all temperatures from 721 K to 751 K, all unit systems", "why_tests_cant": "a sign over an interval of reals", "anchors": ["pyXSteam/XSteam.py: pmelt_t", "pyXSteam/IAPWS_R14.py: pmelt_T_iceVII"]}
{"id": "C47", "title": "Heat capacities and the speed of sound are positive numbers", "statement": "In regions 1, 2 and 5, Cp_pt, Cv_pt and w_pt return numbers (no exception, no NaN) with 0 < Cv_pt <= Cp_pt and 0 < w_pt: the coded equations are thermodynamically stable throughout.", "quantifier": "all p,t in these regions, all unit systems, exact arithmetic", "why_tests_cant": "all reals of a 2-d domain; sign of polynomials with up to 40 terms of degree up to 58", "anchors": ["pyXSteam/XSteam.py: Cp_pt, Cv_pt, w_pt", "pyXSteam/Regions.py: Region1, Region2, Region5 Cp*_pT, Cv*_pT, w*_pT"]}
{"id": "C48", "title": "The backward equation T(p,h) of region 1 undoes the basic equation", "statement": "For every state of region 1, T1_ph(p, h1_pT(p, T)) returns a temperature within 25 mK of T, the accuracy stated by IAPWS-IF97.", "quantifier": "all p,T of region 1, exact arithmetic", "why_tests_cant": "all reals of a 2-d domain; a wrong digit in one of 20 coefficients can show in a narrow part of it only", "anchors": ["pyXSteam/Regions.py: Region1.T1_ph, Region1.h1_pT"]}
{"id": "C49", "title": "The backward equation T(p,s) of region 1 undoes the basic equation", "statement": "For every state of region 1, T1_ps(p, s1_pT(p, T)) returns a temperature within 25 mK of T, the accuracy stated by IAPWS-IF97.", "quantifier": "all p,T of region 1, exact arithmetic", "why_tests_cant": "all reals of a 2-d domain; a wrong digit in one of 20 coefficients can show in a narrow part of it only", "anchors": ["pyXSteam/Regions.py: Region1.T1_ps, Region1.s1_pT"]}
{"id": "C50", "title": "The backward equation p(h,s) of region 1 undoes the basic equations", "statement": "For every state of region 1, p1_hs(h1_pT(p, T), s1_pT(p, T)) returns a pressure within 15 kPa of p, the accuracy stated by the IAPWS supplementary release.", "quantifier": "all p,T of region 1, exact arithmetic", "why_tests_cant": "all reals of a 2-d domain; a wrong digit in one of 19 coefficients can show in a narrow part of it only", "anchors": ["pyXSteam/Regions.py: Region1.p1_hs, Region1.h1_pT, Region1.s1_pT"]}
{"id": "C51", "title": "Properties at (p,h), (p,s) and (h,s) agree with properties at (p,t)", "statement": "Where a state (p,h) or (p,s) is classified into region 1, 2 or 5 and the point (p,t) of its temperature t_ph or t_ps into the same region, v, s (or h), u, Cp, Cv and w at (p,h) or (p,s) are the same as at (p,t); in region 3 they are those of the density 1/v and temperature t; t_hs is t_ph of the pressure p_hs, and in the two-phase region t_ph and t_ps are tsat_p and p_hs is psat of t_hs.", "quantifier": "all inputs, all arithmetics in SI units; all unit systems in exact arithmetic", "why_tests_cant": "each of 22 methods repeats the same dispatch by hand, a wrong helper in one branch shows only in part of a plane", "anchors": ["pyXSteam/XSteam.py: *_ph, *_ps, *_hs"]}
{"id": "C52", "title": "Enthalpy, entropy and volume are strictly monotone", "statement": "Within region 1, 2 or 5, h_pt and s_pt strictly increase with temperature on every isobar, and v_pt strictly decreases with pressure on every isotherm.", "quantifier": "all pairs of states of a region, all unit systems, exact arithmetic", "why_tests_cant": "all pairs of reals", "anchors": ["pyXSteam/XSteam.py: h_pt, s_pt, v_pt", "pyXSteam/Regions.py: Region1, Region2, Region5"]}
{"id": "C53", "title": "region_ph classifies by the boundary enthalpies and agrees with region_pT", "statement": "Below 16.5291 MPa the region of (p,h) is determined by comparing h with the enthalpies at 273.15 K, of saturated liquid, of saturated steam, at 1073.15 K and at 2273.15 K, and the enthalpy estimates used by the code never classify wrongly; at the enthalpy of a state of region 1, 2 or 5 given by (p,t) the region by (p,h) is the region by (p,t), except on the isotherms 623.15 K and 1073.15 K above 16.5292 MPa, where it is not, and above 10 MPa in region 5.", "quantifier": "all pressures and enthalpies, all unit systems, exact arithmetic", "why_tests_cant": "two planes of reals; the shortcut estimates and the isotherm edges are measure-zero or narrow bands", "anchors": ["pyXSteam/RegionSelection.py: region_ph, region_pT"]}
{"id": "C54", "title": "region_ps classifies by the boundary entropies and agrees with region_pT", "statement": "Below 16.529 MPa the region of (p,s) is determined by comparing s with 0 and the entropies of saturated liquid, of saturated steam, at 1073.15 K and at 2273.15 K; at the entropy of a state of region 1, 2 or 5 given by (p,t) the region by (p,s) is the region by (p,t), provided it is not negative; entropies below those at 273.15 K are not rejected, and at exactly 16.529 MPa wet steam is classified as region 1.", "quantifier": "all pressures and entropies, all unit systems, exact arithmetic", "why_tests_cant": "two planes of reals, and a defect on a single isobar", "anchors": ["pyXSteam/RegionSelection.py: region_ps, region_pT"]}
{"id": "C55", "title": "The backward equation T(p,h) of region 2 undoes the basic equation", "statement": "For every state of region 2, T2_ph(p, h2_pT(p, T)), with its three subregions and the border B2bc between them, returns a temperature within 40 mK of T.", "quantifier": "all p,T of region 2, exact arithmetic", "why_tests_cant": "all reals of a 2-d domain; a wrong digit in one of 95 coefficients, or a wrong border, can show in a narrow part of it only", "anchors": ["pyXSteam/Regions.py: Region2.T2_ph, Region2.h2_pT"]}
{"id": "C56", "title": "The bisection searches for the temperature in region 5 converge", "statement": "For every state of region 5, T5_ph(p, h5_pT(p, T)) is within 0.01 mK of T, unless the enthalpy is by exactly 1 kJ/kg above that of the first midpoint 1673.15 K: then the search stops at once with a warning and a temperature at least 0.2 K off (defect of the starting value of the loop). T5_ps(p, s5_pT(p, T)) never gives up, its entropy is within 1e-5 kJ/(kg K) of the one given and its temperature within 16 mK.", "quantifier": "all states of region 5 (T5_ps up to 10 MPa), exact arithmetic", "why_tests_cant": "convergence of a loop for every real input, and an exceptional curve of measure zero", "anchors": ["pyXSteam/Regions.py: Region5.T5_ph, Region5.T5_ps, Region5.h5_pT, Region5.s5_pT"]}
{"id": "C57", "title": "t_ph and t_ps recover the temperature of h_pt and s_pt", "statement": "In every unit system, for a state (p,t) of region 1, 2 or 5, t_ph(p, h_pt(p,t)) is t to within 25 mK, 40 mK or 0.01 mK; t_ps(p, s_pt(p,t)) is t to within 25 mK, 40 mK or 16 mK.", "quantifier": "all states of these regions outside the borders named in C53, C54 and the curve of C56, all unit systems, exact arithmetic", "why_tests_cant": "the composition of unit conversion, classification and two independently coded equations for all reals", "anchors": ["pyXSteam/XSteam.py: t_ph, h_pt, t_ps, s_pt"]}
{"id": "C58", "title": "The backward equation T(p,s) of region 2 undoes the basic equation", "statement": "For every state of region 2, T2_ps(p, s2_pT(p, T)), with its three subregions, never fails and returns a temperature within 40 mK of T.", "quantifier": "all p,T of region 2, exact arithmetic", "why_tests_cant": "all reals of a 2-d domain; a wrong digit in one of 120 coefficients, or a wrong subregion border, can show in a narrow part of it only", "anchors": ["pyXSteam/Regions.py: Region2.T2_ps, Region2.s2_pT"]}
{"id": "C59", "title": "t_hs and p_hs raise ValueError for wet steam of low enthalpy", "statement": "For every point classified as region 4 with 3.77828134 < s <= 5.210887663 kJ/(kg K) and 900 <= h <= 1250 kJ/kg, t_hs, p_hs and tc_hs end in ValueError: the search starts at p3sat_h(h), an equation used far outside its range, where the specific volume of region 3 is negative and its logarithm fails. (Defect.)", "quantifier": "all h, s of the strip, all unit systems, exact arithmetic", "why_tests_cant": "a strip of a 2-d domain that no test of the library touches", "anchors": ["pyXSteam/XSteam.py: t_hs, p_hs, tc_hs", "pyXSteam/Regions.py: Region4.T4_hs"]}
{"id": "C60", "title": "Enthalpy, entropy and volume do not jump at the border between regions 2 and 5 up to 10 MPa", "statement": "For every pressure above 0.000611 and up to 10 MPa, in every unit system, the value of h_pt, s_pt and v_pt on the isotherm 1073.15 K and the limit from above, where region 5 begins, differ by at most 0.026 kJ/kg, 0.00005 kJ/(kg K) and 0.003 %.", "quantifier": "all pressures, a limit in temperature, all unit systems, exact arithmetic", "why_tests_cant": "continuity is a statement about a limit; tests compare isolated values", "anchors": ["pyXSteam/XSteam.py: h_pt, s_pt, v_pt", "pyXSteam/Regions.py: Region2.h2_pT, s2_pT, v2_pT, Region5.h5_pT, s5_pT, v5_pT"]}
{"id": "C61", "title": "Enthalpy and volume jump at the border between regions 2 and 5 from 40 to 50 MPa", "statement": "For every pressure from 40 to 50 MPa, which region_pT accepts as region 5 above 1073.15 K, v_pt and h_pt jump at 1073.15 K by more than 0.9 % and 1.9 kJ/kg: the five-term equation of 1997 for region 5, made for pressures of at most 10 MPa, is used up to 50 MPa. (Defect.)", "quantifier": "all pressures of the range, a limit in temperature, all unit systems, exact arithmetic", "why_tests_cant": "the tests of region 5 use three points and compare with the verification values of the same equation", "anchors": ["pyXSteam/XSteam.py: h_pt, v_pt", "pyXSteam/Regions.py: RegionSelection.region_pT, Region5.h5_pT, v5_pT"]}
{"id": "C62", "title": "The backward equation T(p,h) of region 3 undoes the basic equation", "statement": "For every single-phase state of region 3, given by density and temperature, T3_ph(p3_rhoT(rho, T), h3_rhoT(rho, T)), with its two subregions and the border between them, returns a temperature within 25 mK of T, the accuracy stated by the IAPWS supplementary release.", "quantifier": "all single-phase states of region 3 from 96.6 to 772.8 kg/m3, exact arithmetic", "why_tests_cant": "all reals of a 2-d domain that includes the critical point; a wrong digit in one of 64 coefficients, or a wrong border, can show in a narrow part of it only", "anchors": ["pyXSteam/Regions.py: Region3.T3_ph, Region3.p3_rhoT, Region3.h3_rhoT"]}
{"id": "C63", "title": "The backward equation v(p,h) of region 3 undoes the basic equation", "statement": "For every single-phase state of region 3, given by density and temperature, v3_ph(p3_rhoT(rho, T), h3_rhoT(rho, T)), with its two subregions, returns a volume within 0.01 % of 1/rho, the accuracy stated by the IAPWS supplementary release.", "quantifier": "all single-phase states of region 3 from 96.6 to 772.8 kg/m3, exact arithmetic", "why_tests_cant": "all reals of a 2-d domain that includes the critical point; a wrong digit in one of 62 coefficients can show in a narrow part of it only", "anchors": ["pyXSteam/Regions.py: Region3.v3_ph, Region3.p3_rhoT, Region3.h3_rhoT"]}
{"id": "C64", "title": "my_pt and my_ph evaluate the published viscosity correlation", "statement": "Wherever v_pt (or v_ph and t_ph, outside the two-phase region) returns a specific volume and the temperature is at most 900 degC, my_pt (my_ph) returns a positive number, the viscosity of the IAPS 1985 formulation (Spec/Transport) at the density 1/v and the temperature.", "quantifier": "all inputs, all unit systems, exact arithmetic", "why_tests_cant": "the formula with 19 coefficients is typed twice, and each copy repeats the dispatch over the regions; a wrong digit in one coefficient, or a wrong volume equation in one region, shows in part of a plane only", "anchors": ["pyXSteam/XSteam.py: my_pt, my_ph", "pyXSteam/TransportProperties.py: my_AllRegions_pT, my_AllRegions_ph"]}
{"id": "C65", "title": "The thermal conductivity functions evaluate the published correlation", "statement": "For tc_pt, tc_ph, tc_hs, tcL_p, tcV_p, tcL_t and tcV_t: wherever the specific volume, and the temperature or pressure the function computes for itself, are returned, within the documented range the result is a positive number, the conductivity of the IAPS 1985 formulation for industrial use (Spec/Transport) at the density 1/v and the temperature.", "quantifier": "all inputs, all unit systems, exact arithmetic", "why_tests_cant": "an enhancement term with steep exponentials; positivity is a statement about all reals of a 2-d domain, and seven call paths convert units by hand", "anchors": ["pyXSteam/XSteam.py: tc_pt, tc_ph, tc_hs, tcL_p, tcV_p, tcL_t, tcV_t", "pyXSteam/TransportProperties.py: tc_ptrho"]}
{"id": "C66", "title": "Viscosity, thermal conductivity and Prandtl number are positive", "statement": "In regions 1, 2 and 5, up to 900 degC and up to the pressure limit of the conductivity, my_pt, tc_pt and pr_pt return positive numbers.", "quantifier": "all states of these regions, all unit systems, exact arithmetic", "why_tests_cant": "all reals of a 2-d domain", "anchors": ["pyXSteam/XSteam.py: my_pt, tc_pt, pr_pt"]}
{"id": "C67", "title": "The two phases at saturation", "statement": "For every pressure above 0.000611657 and below 16.529 MPa, hL_p < hV_p and sL_p < sV_p, vL_p, vV_p, wL_p, wV_p, tcL_p and tcV_p are positive, and 0 < CvL_p <= CpL_p, 0 < CvV_p <= CpV_p; all return numbers without a log record.", "quantifier": "all pressures of the range, all unit systems, exact arithmetic", "why_tests_cant": "a statement about a curve in the plane of states, for all reals", "anchors": ["pyXSteam/XSteam.py: hL_p, hV_p, sL_p, sV_p, vL_p, vV_p, CpL_p, CpV_p, CvL_p, CvV_p, wL_p, wV_p, tcL_p, tcV_p"]}
{"id": "C68", "title": "Enthalpy and vapour fraction of wet steam up to the critical pressure", "statement": "For 16.529 <= p < 22.06395 MPa the bisections h4L_p and h4V_p end with an enthalpy on the liquid or on the vapour side at which p3sat_h is p to 1e-5 or 1e-6 MPa. For every saturation pressure accepted by the calls hL_p < hV_p; h_px is hL_p + x (hV_p - hL_p) and x_ph(p, h_px(p, x)) = x exactly for 0 <= x <= 1; x_ph lies in [0, 1], is 0 exactly up to hL_p and 1 exactly from hV_p.", "quantifier": "all pressures of the range, all vapour fractions, all unit systems, exact arithmetic", "why_tests_cant": "convergence of a search and an inverse for a continuum of pressures", "anchors": ["pyXSteam/Regions.py: h4L_p, h4V_p, x4_ph", "pyXSteam/XSteam.py: hL_p, hV_p, h_px, x_ph", "pyXSteam/RegionBorders.py: p3sat_h"]}
{"id": "C69", "title": "Exact classification at the pressures of region 3", "statement": "For 16.5292 <= p <= 100 MPa region_ph compares the enthalpy with the enthalpies at 273.15 K, 623.15 K, the border between regions 2 and 3 and 1073.15 K; between the second and the third it is region 3 from 22.064 MPa, and below 22.06395 MPa it is region 4 exactly between the only two enthalpies with p3sat_h = p and region 3 otherwise. region_ps does the same with entropies (below 22.063 MPa).", "quantifier": "all enthalpies and entropies, all pressures of the range, exact arithmetic", "why_tests_cant": "needs the monotonicity of a polynomial of degree 60 on two intervals", "anchors": ["pyXSteam/RegionSelection.py: region_ph, region_ps", "pyXSteam/RegionBorders.py: p3sat_h, p3sat_s, B23T_p"]}
{"id": "C70", "title": "Wet steam is the mixture of its phases, by enthalpy and by entropy alike", "statement": "For every pressure above 0.000611657 and below 16.529 MPa and 0 < x < 1: at h = h_px(p, x) the calls x_ph, t_ph, v_ph, s_ph and u_ph return x, tsat_p and the mixtures L + x (V - L) of the saturated values; at the entropy of this mixture, if not negative, x_ps, t_ps, h_ps, v_ps and u_ps return the same; vL_p < vV_p; vx_ph and vx_ps return the vapour's share of the volume, which is above x and below 1.", "quantifier": "all pressures of the range, all vapour fractions, all unit systems, exact arithmetic", "why_tests_cant": "twelve methods repeat the mixing rule by hand, behind a classification that must recognise every mixture", "anchors": ["pyXSteam/XSteam.py: v_ph, s_ph, u_ph, t_ph, x_ph, v_ps, h_ps, u_ps, t_ps, x_ps, vx_ph, vx_ps", "pyXSteam/Regions.py: Region4.x4_ph, x4_ps"]}
{"id": "C71", "title": "The properties at (p,h) and (p,s) are those of a state next to the one given", "statement": "In every unit system, for a state (p,t) of region 1, 2 or 5 whose neighbours on the isobar, up to the accuracy of t_ph (t_ps), belong to the same region: v, s, u, Cp, Cv and w at (p, h_pt(p,t)) are v_pt, s_pt, ... at (p, t') for one t' within that accuracy of t; the same for v, h, u, Cp, Cv and w at (p, s_pt(p,t)).", "quantifier": "all such states, all unit systems, exact arithmetic", "why_tests_cant": "the composition of unit conversion, two classifications and two independently coded equations, for thirteen methods and all reals", "anchors": ["pyXSteam/XSteam.py: v_ph, s_ph, u_ph, Cp_ph, Cv_ph, w_ph, t_ph, v_ps, h_ps, u_ps, Cp_ps, Cv_ps, w_ps, t_ps"]}
{"id": "C72", "title": "The properties at (p,h) in region 3", "statement": "In every unit system, at the pressure and enthalpy of a single-phase state of region 3 given by density and temperature and classified as such by region_ph, t_ph and v_ph are the temperature to 25 mK and the volume to 0.01 %, and s_ph, u_ph, Cp_ph, Cv_ph and w_ph are those of the basic equation at that temperature and volume. From 22.064 to 100 MPa all enthalpies from 1700 to 2500 kJ/kg are classified as region 3.", "quantifier": "all such states, all unit systems, exact arithmetic", "why_tests_cant": "all reals of a 2-d domain with the critical point in it", "anchors": ["pyXSteam/XSteam.py: t_ph, v_ph, s_ph, u_ph, Cp_ph, Cv_ph, w_ph", "pyXSteam/Regions.py: RegionSelection.region_ph, Region3"]}
{"id": "C73", "title": "The liquid is recovered from (h,s)", "statement": "For a liquid (region 1) at least 0.1 MPa above its saturation pressure, at most at 99.8 MPa and with entropy between -0.0001545495919 and 3.397782955 kJ/(kg K), region_hs answers 1 at the enthalpy and entropy of the state, and in every unit system p_hs of h_pt and s_pt returns the pressure to 0.015 MPa and t_hs the temperature to 0.085 K.", "quantifier": "all such states, all unit systems, exact arithmetic", "why_tests_cant": "all reals of a 2-d domain; the classification compares with a 27-term polynomial with cancelling terms and with a backward equation at 100 MPa", "anchors": ["pyXSteam/Regions.py: RegionSelection.region_hs, Region4.h4_s, Region1.p1_hs, Region1.T1_ps, Region1.T1_ph", "pyXSteam/XSteam.py: p_hs, t_hs"]}
{"id": "C74", "title": "Cold water is refused by its density", "statement": "h_prho returns NaN and logs a warning for the density that rho_pt returns for liquid water (region 1) below 276.15 K and up to 4 MPa: water is densest near 4 degC, and region_prho takes the volume at 273.15 K for the smallest. So it does for every state of regions 1, 2 and 5 between 0.000611 MPa, the limit of region_pT, and 0.000611657 MPa, the limit of region_prho. (Defect.)", "quantifier": "all such states, all unit systems, exact arithmetic", "why_tests_cant": "a statement about all reals of a 2-d domain: the sign of a second derivative of a 34-term polynomial", "anchors": ["pyXSteam/XSteam.py: h_prho, rho_pt", "pyXSteam/RegionSelection.py: region_prho", "pyXSteam/Regions.py: Region1.v1_pT"]}
{"id": "C75", "title": "States are recovered from pressure and density", "statement": "In every unit system, for the density rho_pt of a liquid (region 1) at 283.15 K or above and not on the border at 623.15 K, h_prho is the enthalpy of the liquid at the same pressure and a temperature within 0.011 K, where the density is within 1e-5 kg/m3; of steam (region 2) above 0.000611657 MPa, off the border with region 3, h_prho is the enthalpy of steam at a temperature where the density is within 1e-6 kg/m3; for the density of wet steam of quality x between 0.00123 and 16.529 MPa h_prho is exactly h_px. No log record.", "quantifier": "all such states, all unit systems, exact arithmetic", "why_tests_cant": "convergence of two searches from bounds that lie outside the region, for all reals of a 2-d domain; needs the volume to increase with temperature", "anchors": ["pyXSteam/XSteam.py: h_prho, rho_pt, h_px, vL_p, vV_p", "pyXSteam/RegionSelection.py: region_prho", "pyXSteam/Regions.py: Region1.T1_prho, Region2.T2_prho, Region4.T4_p"]}
{"id": "C76", "title": "Hot steam is refused by its density", "statement": "region_prho answers 5 for steam between 1080 and 2073.15 K up to 10 MPa; but for the density that rho_pt returns for a state of region 5 above 2073.15 K, or above 10 MPa and 1080 K, h_prho returns NaN and logs a warning, though region 5 extends to 2273.15 K and region_pT accepts it up to 50 MPa. (Defect.)", "quantifier": "all such states, all unit systems, exact arithmetic", "why_tests_cant": "all reals of a 2-d domain; compares two independent equations along an isobar", "anchors": ["pyXSteam/XSteam.py: h_prho, rho_pt", "pyXSteam/RegionSelection.py: region_prho, region_pT", "pyXSteam/Regions.py: Region5.v5_pT, Region2.v2_pT"]}
{"id": "C77", "title": "Region 3 is recovered from pressure and density", "statement": "For a density from 96.6 to 772.8 kg/m3 and a temperature at which p3_rhoT gives a pressure that with this temperature lies in region 3, the search T3_prho for that pressure and density ends at a temperature within 4e-7 K of it, where the pressure is within 1e-8 MPa of the one given. Above 22.064 MPa region_prho answers 3, without a log record, for densities from 400 to 609 kg/m3, and for any density whose volume lies between those of the borders. In every unit system h_prho is then the enthalpy of the basic equation at that density and the temperature found.", "quantifier": "all such states, all unit systems, exact arithmetic", "why_tests_cant": "convergence of a search whose bounds lie outside region 3, for all reals of a 2-d domain with the critical point in it", "anchors": ["pyXSteam/XSteam.py: h_prho", "pyXSteam/RegionSelection.py: region_prho", "pyXSteam/Regions.py: Region3.T3_prho, Region3.p3_rhoT, Region3.h3_rhoT"]}
{"id": "C78", "title": "States refused by enthalpy and by entropy", "statement": "In every unit system the functions t, v, rho, s, u, Cp, Cv, w, my of (p,h) and t, v, rho, h, u, Cp, Cv, w of (p,s) return NaN and log a warning at the enthalpy h_pt and entropy s_pt of states which region_pT accepts: all states of regions 1, 2 and 5 below 0.000611657 MPa; all of region 5 above 10 MPa from 1073.2 K; by entropy also all water of region 1 from 60 MPa up to 273.25 K, whose entropy is negative; p_hs and t_hs refuse that water too. (Defect.)", "quantifier": "all such states, all unit systems, exact arithmetic", "why_tests_cant": "all reals of a 2-d domain; compares two independent equations along an isotherm", "anchors": ["pyXSteam/XSteam.py: t_ph, v_ph, s_ph, u_ph, Cp_ph, Cv_ph, w_ph, my_ph, rho_ph, rho_ps, t_ps, v_ps, h_ps, u_ps, Cp_ps, Cv_ps, w_ps, p_hs, t_hs", "pyXSteam/RegionSelection.py: region_ph, region_ps, region_hs, region_pT"]}
{"id": "C79", "title": "Hot steam is refused by enthalpy and entropy", "statement": "region_hs never names a region for an enthalpy of at least 4162 kJ/kg together with an entropy of at least 6.7 kJ/(kg K). In every unit system, for every state of region 5 from 1160 K, or up to 10 MPa from 1100 K, whatever p_hs and t_hs return at its own enthalpy h_pt and entropy s_pt is NaN with a warning; they do return unless the entropy lies in one of the gaps 9.155759395-9.156 and 11.921-11.9212156897728 kJ/(kg K). (Limitation.)", "quantifier": "all such enthalpies, entropies and states, all unit systems, exact arithmetic", "why_tests_cant": "unbounded 2-d domain; compares two fitted quartics and the saturated-vapour enthalpy with region 5", "anchors": ["pyXSteam/XSteam.py: p_hs, t_hs, h_pt, s_pt", "pyXSteam/RegionSelection.py: region_hs"]}
{"id": "C80", "title": "Region 3 at (p,h) and (p,t) from 22.1 MPa", "statement": "Every pressure from 22.1 to 100 MPa together with an enthalpy from 1700 to 2500 kJ/kg belongs to a stable state of region 3, and in every unit system t_ph and v_ph are its temperature to 25 mK and its volume to 0.01 %. In region 3, when h_pt answers such an enthalpy without a warning, there is a stable state with this pressure and enthalpy whose temperature is the argument to 25.01 mK; v_pt is its volume to 0.01 %, t_ph at the enthalpy gives the temperature back to 1e-5 K and v_ph the same volume, and s_pt, u_pt, Cp_pt, Cv_pt and w_pt are those of the basic equation at that volume and the temperature.", "quantifier": "all such pressures, enthalpies and temperatures, all unit systems, exact arithmetic", "why_tests_cant": "existence of a state at every point of a 2-d domain, and a solver without a proof of convergence", "anchors": ["pyXSteam/XSteam.py: h_pt, v_pt, t_ph, v_ph, s_pt, u_pt, Cp_pt, Cv_pt, w_pt", "pyXSteam/Regions.py: Region3.h3_pT, T3_ph, v3_ph"]}
{"id": "C81", "title": "The saturation functions of temperature are those of pressure", "statement": "For every saturation pressure p accepted by the calls that is below 16.529 MPa or at least 16.5292 MPa, hL_t, hV_t, vL_t, vV_t, rhoL_t, rhoV_t, sL_t, sV_t, uL_t, uV_t, CpL_t, CpV_t, CvL_t, CvV_t, wL_t, wV_t, tcL_t, tcV_t and st_t at tsat_p(p) return exactly what the same function by pressure returns at p, log records included; the same holds from the temperature, f_p(psat_t(t)) = f_t(t). h_tx(tsat_p(p), x) = h_px(p, x) for every real x and every p of the range. Finding: from 0 degC to 273.1599 K and from 647.0959 K to the critical temperature hL_t and hV_t accept the temperature and return -99999 kJ/kg without a log record, and near the critical temperature vL_t and vV_t return less than -1e40 m3/kg.", "quantifier": "all saturation pressures and temperatures outside a strip of 1.1 mK at 623.15 K where the two families switch equations at different points, all unit systems, exact arithmetic", "why_tests_cant": "38 functions with separate hand-written guards and branches over a continuum; the wrong answers lie in intervals of 10 mK and 0.1 mK", "anchors": ["pyXSteam/XSteam.py: hL_t, hL_p, hV_t, hV_p, vL_t, vL_p, ..., tcV_t, tcV_p, st_t, st_p, h_tx, h_px", "pyXSteam/Regions.py: Region4.p4_T, T4_p, h4L_p, h4V_p, Region3.v3_ph"]}
{"id": "C82", "title": "The numbers returned are each other's slopes", "statement": "In regions 1, 2 and 5 and in every unit system, taking the numbers returned by v_pt, h_pt, s_pt, Cp_pt, Cv_pt and w_pt as functions of MPa and K: Cp_pt is the slope of h_pt with the temperature and T times the slope of s_pt; the slope of s_pt with the pressure is minus the slope of v_pt with the temperature; the slope of h_pt with the pressure is v - T dv/dT; v_pt falls with the pressure, Cp_pt - Cv_pt = -T (dv/dT)^2/(dv/dp), and w_pt^2 = -v^2 Cp/(Cv dv/dp). In the user's own units Cp_pt is the slope of h_pt exactly in bare and MKS units and to 5e-7 in FLS units.", "quantifier": "every (p,T) of regions 1, 2 and 5 (one-sided slopes on the borders), all unit systems, exact arithmetic", "why_tests_cant": "a slope is a limit; a difference quotient of the code cannot tell a wrong coefficient from step error, and the relations tie six separately written formulas at every state", "anchors": ["pyXSteam/XSteam.py: v_pt, h_pt, s_pt, Cp_pt, Cv_pt, w_pt", "pyXSteam/Regions.py: Region1, Region2, Region5"]}
{"id": "C83", "title": "Saturation line and regions in floating point arithmetic", "statement": "With IEEE double arithmetic (or any arithmetic whose roundings and pow have a relative error of at most 1e-15), in every unit system: psat_t returns a number whose relative distance from the solution of the saturation equation is at most 1.1e-8 for temperatures from 273.1001 to 647.0959 K; tsat_p returns a number at most 2e-7 K from the solution for pressures from 0.00061166 to 22.0639 MPa; region_pT returns, with the same log records, the region that contains the state whenever the state keeps 1e-9 (K or MPa) from the constant limits, 1e-8 MPa from the border between regions 2 and 3 and 1e-6 MPa from the edges of the saturation band; all properties at (p,t) refuse states outside the regions or in the saturation band under the same conditions.", "quantifier": "all temperatures and pressures of the stated ranges, all unit systems, all floating point arithmetics with about 15 digits, binary64 among them", "why_tests_cant": "rounding errors of every intermediate result for every one of the about 10^18 doubles; cancellation in the discriminants is worst at particular points", "anchors": ["pyXSteam/XSteam.py: psat_t, tsat_p, h_pt, v_pt, s_pt, u_pt, Cp_pt, Cv_pt, w_pt, my_pt", "pyXSteam/Regions.py: Region4.p4_T, T4_p", "pyXSteam/RegionSelection.py: region_pT", "pyXSteam/RegionBorders.py: B23p_T", "pyXSteam/UnitConverter.py: toSIunit_p, fromSIunit_p, toSIunit_T, fromSIunit_T"]}
{"id": "C84", "title": "Rounding error of the properties at (p,t) in regions 1 and 5", "statement": "With IEEE double arithmetic (or any arithmetic whose roundings and pow have a relative error of at most 1e-15), in every unit system, at every state of region 1 or 5 that keeps the distances of C83 from the borders: v_pt, h_pt, u_pt and s_pt return a finite number without a log record, and it differs from the value of the same call in exact arithmetic, measured in SI units, by at most 1.7e-9 m3/kg, 6e-4 kJ/kg, 1.5e-3 kJ/kg and 2e-6 kJ/(kg K) in region 1 and by at most 6e-10 m3/kg, 5e-8 kJ/kg, 3.5e-6 kJ/kg and 2e-10 kJ/(kg K) in region 5 (s_pt in region 5: if moreover log is right to 1e-14).", "quantifier": "all pressures and temperatures of regions 1 and 5 away from the borders, all unit systems, all arithmetics with fifteen digits", "why_tests_cant": "The terms of the region 1 equation reach powers of 32 and -41 and cancel; an unlucky input could lose digits that no sampled input loses.", "anchors": ["pyXSteam/XSteam.py:395-430", "pyXSteam/XSteam.py:664-701", "pyXSteam/XSteam.py:988-1023", "pyXSteam/XSteam.py:1185-1222", "pyXSteam/Regions.py:6396-6432", "pyXSteam/Regions.py:6435-6458", "pyXSteam/Regions.py:6461-6500", "pyXSteam/Regions.py:6544-6584", "pyXSteam/Regions.py:20-144", "pyXSteam/Regions.py:147-271", "pyXSteam/Regions.py:274-402", "pyXSteam/Regions.py:405-530", "pyXSteam/UnitConverter.py:60-124"]}
