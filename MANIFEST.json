{
 "claims": [
  {
   "property": "C01",
   "status": "proved",
   "theorems": [
    "PyX.C01_toSI_value",
    "PyX.C01_fromSI_value",
    "PyX.C01_user_roundtrip",
    "PyX.C01_si_roundtrip"
   ],
   "note": "exact arithmetic"
  },
  {
   "property": "C02",
   "status": "proved",
   "theorems": [
    "PyX.C02_total"
   ],
   "note": "every sane arithmetic"
  },
  {
   "property": "C03",
   "status": "proved",
   "theorems": [
    "PyX.C03_fraction"
   ],
   "note": "every sane arithmetic"
  },
  {
   "property": "C04",
   "status": "proved",
   "theorems": [
    "PyX.C04_accepts",
    "PyX.C04_rejects",
    "PyX.C04_init",
    "PyX.C04_atomic",
    "PyX.C04_frame"
   ],
   "note": ""
  },
  {
   "property": "C05",
   "status": "proved",
   "theorems": [
    "PyX.C05_simple",
    "PyX.C05_exact"
   ],
   "note": "every sane arithmetic for methods computing in SI; exact arithmetic for all methods but the defective ones"
  },
  {
   "property": "C06",
   "status": "proved",
   "theorems": [
    "PyX.C06_history",
    "PyX.C06_call_pure",
    "PyX.C06_irrelevant"
   ],
   "note": "every arithmetic, every history"
  },
  {
   "property": "C07",
   "status": "proved",
   "theorems": [
    "PyX.C07_region_pT",
    "PyX.C07_unique",
    "PyX.C07_iff",
    "PyX.C07_any_arithmetic",
    "PyX.C07_not_finite"
   ],
   "note": "C07_region_pT, C07_unique and C07_iff: exact arithmetic, the map of regions of Spec/RegionPT, saturation pressure characterised by the implicit equation. C07_any_arithmetic: codes and borders in every arithmetic. C07_not_finite: NaN and infinities."
  },
  {
   "property": "C08",
   "status": "proved",
   "theorems": [
    "PyX.C08_region_ph"
   ],
   "note": "every arithmetic, all floats"
  },
  {
   "property": "C09",
   "status": "proved",
   "theorems": [
    "PyX.C09_region_ps"
   ],
   "note": "every arithmetic, all floats"
  },
  {
   "property": "C10",
   "status": "proved",
   "theorems": [
    "PyX.C10_region_hs"
   ],
   "note": "every arithmetic, all floats"
  },
  {
   "property": "C11",
   "status": "proved",
   "theorems": [
    "PyX.C11_region_prho"
   ],
   "note": "every arithmetic, all floats"
  },
  {
   "property": "C12",
   "status": "proved",
   "theorems": [
    "PyX.C12_outside",
    "PyX.C12_inside"
   ],
   "note": "outside: every sane arithmetic; inside: exact arithmetic"
  },
  {
   "property": "C13",
   "status": "proved",
   "theorems": [
    "PyX.C13_refused",
    "PyX.C13_number"
   ],
   "note": "refused: every arithmetic; number elsewhere: exact arithmetic"
  },
  {
   "property": "C14",
   "status": "proved",
   "theorems": [
    "PyX.C14_h_px",
    "PyX.C14_h_tx",
    "PyX.C14_bad_fraction",
    "PyX.C14_h_px_low"
   ],
   "note": "C14_h_px/C14_h_tx: exact arithmetic, all unit systems, h_px = hL + x (hV-hL) whenever hL_p and hV_p return numbers. C14_h_px_low computes both for the whole low-pressure range. C14_bad_fraction: every sane arithmetic."
  },
  {
   "property": "C15",
   "status": "proved",
   "theorems": [
    "PyX.C15_h_px",
    "PyX.C15_h_tx"
   ],
   "note": "C15_h_px: every sane arithmetic. C15_h_tx: exact arithmetic, 165 K <= T <= 273.15 K."
  },
  {
   "property": "C16",
   "status": "proved",
   "theorems": [
    "PyX.C16_fraction",
    "PyX.C16_x_ph",
    "PyX.C16_x_ps"
   ],
   "note": "fraction: every sane arithmetic; values: exact arithmetic"
  },
  {
   "property": "C17",
   "status": "proved",
   "theorems": [
    "PyX.C17_reciprocal"
   ],
   "note": "every arithmetic"
  },
  {
   "property": "C18",
   "status": "proved",
   "theorems": [
    "PyX.C18_psat_on_line",
    "PyX.C18_tsat_on_line",
    "PyX.C18_psat_tsat",
    "PyX.C18_tsat_psat",
    "PyX.C18_tsat_psat_range"
   ],
   "note": "psat_t and tsat_p solve the saturation equation of the standard (Spec/Saturation) and undo each other, exact arithmetic, all unit systems. tsat_p(psat_t(t)) = t is proved wherever the pressure is inside the range of tsat_p, and in particular for 273.17 K <= T <= 647.095 K."
  },
  {
   "property": "C19",
   "status": "proved",
   "theorems": [
    "PyX.C19_psat_strictMono",
    "PyX.C19_tsat_strictMono"
   ],
   "note": "Exact arithmetic, all unit systems, whole guard ranges."
  },
  {
   "property": "C20",
   "status": "proved",
   "theorems": [
    "PyX.C20_region1"
   ],
   "note": "exact arithmetic; all points where the equation can be evaluated; cv and w where they return"
  },
  {
   "property": "C21",
   "status": "proved",
   "theorems": [
    "PyX.C21_region2"
   ],
   "note": "exact arithmetic; all points where the equation can be evaluated; cv and w where they return"
  },
  {
   "property": "C22",
   "status": "proved",
   "theorems": [
    "PyX.C22_region5"
   ],
   "note": "exact arithmetic; all p>0, T\u22600; cv and w where they return"
  },
  {
   "property": "C23",
   "status": "proved",
   "theorems": [
    "PyX.C23_region3"
   ],
   "note": "exact arithmetic; all rho>0, T\u22600; cp and w where they return"
  },
  {
   "property": "C24",
   "status": "proved",
   "theorems": [
    "PyX.C24_potential",
    "PyX.C24_energy"
   ],
   "note": "Exact arithmetic, all unit systems. C24_potential also gives v, s, h, u, cp as the properties of the Gibbs free energy of the region."
  },
  {
   "property": "C25",
   "status": "proved",
   "theorems": [
    "PyX.C25_loops_end",
    "PyX.C25_calls_end"
   ],
   "note": "every finite-precision arithmetic; binary64 is shown to be one"
  },
  {
   "property": "C26",
   "status": "proved",
   "theorems": [
    "PyX.C26_tolerance",
    "PyX.C26_exact",
    "PyX.C26_bracket"
   ],
   "note": "tolerance: every arithmetic; bracket: exact arithmetic"
  },
  {
   "property": "C27",
   "status": "proved",
   "theorems": [
    "PyX.C27_p_hrho"
   ],
   "note": "every arithmetic"
  },
  {
   "property": "C28",
   "status": "proved",
   "theorems": [
    "PyX.C28_region2",
    "PyX.C28_not_inverse",
    "PyX.C28_differ"
   ],
   "note": "Exact arithmetic, all p and rho: a temperature returned without the non-convergence message solves the region-2 equation within 1e-6 kg/m3; wherever the densities of regions 2 and 5 differ by more, it is not the region-5 temperature."
  },
  {
   "property": "C29",
   "status": "proved",
   "theorems": [
    "PyX.C29_strip",
    "PyX.C29_gap"
   ],
   "note": "C29_strip: any sane arithmetic, all unit systems, the strip of the statement. C29_gap: any arithmetic, every entropy for which no branch of T4_hs assigns PL (T4Gap_ideal lists the three pieces in exact arithmetic), also for tc_hs."
  },
  {
   "property": "C30",
   "status": "proved",
   "theorems": [
    "PyX.C30_hint",
    "PyX.C30_unknown",
    "PyX.C30_auto"
   ],
   "note": "every sane arithmetic"
  },
  {
   "property": "C31",
   "status": "proved",
   "theorems": [
    "PyX.C31_pmelt",
    "PyX.C31_psubl",
    "PyX.C31_reference",
    "PyX.C31_joints",
    "PyX.C31_ice_Ih",
    "PyX.C31_other_ices",
    "PyX.C31_sublimation",
    "PyX.C31_positive"
   ],
   "note": "Exact arithmetic, all unit systems. pmelt_t/psubl_t evaluate the equations of IAPWS R14-08 (Spec/IceCurves); reference points, joints, monotonicity and positivity."
  },
  {
   "property": "C32",
   "status": "proved",
   "theorems": [
    "PyX.C32_outside",
    "PyX.C32_inside",
    "PyX.C32_decreasing"
   ],
   "note": "outside: every sane arithmetic; inside: exact arithmetic"
  },
  {
   "property": "C33",
   "status": "proved",
   "theorems": [
    "PyX.C33_my_pt"
   ],
   "note": "exact arithmetic, where the call returns"
  },
  {
   "property": "C34",
   "status": "proved",
   "theorems": [
    "PyX.C34_tc_ptrho",
    "PyX.C34_tc_pt"
   ],
   "note": "exact arithmetic"
  },
  {
   "property": "C35",
   "status": "proved",
   "theorems": [
    "PyX.C35_nan_in_nan_out"
   ],
   "note": "every sane arithmetic, all calls but h_px, h_tx, p_hrho"
  },
  {
   "property": "C36",
   "status": "proved",
   "theorems": [
    "PyX.C36_no_index_error"
   ],
   "note": "every arithmetic, all calls"
  },
  {
   "property": "C37",
   "status": "proved",
   "theorems": [
    "PyX.C37_prandtl",
    "PyX.C37_prandtl_ph",
    "PyX.C37_unit_free",
    "PyX.C37_my_ps"
   ],
   "note": "Exact arithmetic, all unit systems."
  },
  {
   "property": "C38",
   "status": "proved",
   "theorems": [
    "PyX.C38_v_ph",
    "PyX.C38_u_ph",
    "PyX.C38_s_ph"
   ],
   "note": "Exact arithmetic, all unit systems: the mixture and the bounds."
  },
  {
   "property": "C39",
   "status": "proved",
   "theorems": [
    "PyX.C39_my_outside",
    "PyX.C39_tc_outside",
    "PyX.C39_my_inside",
    "PyX.C39_my_mks"
   ],
   "note": "outside: every sane arithmetic; inside: exact arithmetic"
  },
  {
   "property": "C40",
   "status": "proved",
   "theorems": [
    "PyX.C40_mks",
    "PyX.C40_bare",
    "PyX.C40_fls",
    "PyX.C40_critical_density"
   ],
   "note": "Exact arithmetic, one theorem per unit system; C40_critical_density is the defect."
  },
  {
   "property": "C41",
   "status": "proved",
   "theorems": [
    "PyX.C41_temperature",
    "PyX.C41_pressure",
    "PyX.C41_b23_mono",
    "PyX.C41_b23T_mono"
   ],
   "note": "Exact arithmetic. Both round trips: within 1e-9 K for 623.15..863.15 K, within 1e-10 MPa for 16.5..101 MPa; both equations strictly increasing."
  },
  {
   "property": "C42",
   "status": "proved",
   "theorems": [
    "PyX.C42_number_or_note",
    "PyX.C42_uV_p"
   ],
   "note": "exact arithmetic, all calls; uV_p is shown to be the exception"
  },
  {
   "property": "C43",
   "status": "proved",
   "theorems": [
    "PyX.C43_to_from",
    "PyX.C43_from_to",
    "PyX.C43_temperature",
    "PyX.C43_binary64",
    "PyX.C43_binary64_temperature"
   ],
   "note": "Any arithmetic with relative error eps (FP.Round), every multiplicative quantity and unit system, both directions: relative error at most 2 eps + eps^2, which is below the bound of the statement. Temperatures: absolute error. Instances for IEEE binary64, which is proved to satisfy FP.Round 2^-53."
  },
  {
   "property": "C44",
   "status": "proved",
   "theorems": [
    "PyX.C44_positive_volume"
   ],
   "note": "Exact arithmetic, all unit systems, all of regions 1, 2 and 5; also rho_pt = 1/v_pt."
  },
  {
   "property": "C45",
   "status": "proved",
   "theorems": [
    "PyX.C45_T4_hs_ends",
    "PyX.C45_calls_end",
    "PyX.C45_calls_end_binary64"
   ],
   "note": "every arithmetic with finitely many floats and a relative error of at most 1e-6 (FP.Grid, FP.Rough); binary64 is shown to be one. Every one of the 98 calls ends for every argument"
  },
  {
   "property": "C46",
   "status": "proved",
   "theorems": [
    "PyX.C46_ice_VII_falls"
   ],
   "note": "Exact arithmetic, all unit systems. Defect: the accepted range (751 K) exceeds that of the standard (715 K)."
  },
  {
   "property": "C47",
   "status": "proved",
   "theorems": [
    "PyX.C47_heat_capacities"
   ],
   "note": "Exact arithmetic, all unit systems, all of regions 1, 2 and 5."
  },
  {
   "property": "C48",
   "status": "proved",
   "theorems": [
    "PyX.C48_T1_ph"
   ],
   "note": "Exact arithmetic, all of region 1; the polynomials are composed and bounded on 482 rectangles inside the kernel."
  },
  {
   "property": "C49",
   "status": "proved",
   "theorems": [
    "PyX.C49_T1_ps"
   ],
   "note": "Exact arithmetic, all of region 1; 362 rectangles checked inside the kernel."
  },
  {
   "property": "C50",
   "status": "proved",
   "theorems": [
    "PyX.C50_p1_hs"
   ],
   "note": "Exact arithmetic, all of region 1; 470 rectangles checked inside the kernel."
  },
  {
   "property": "C51",
   "status": "proved",
   "theorems": [
    "PyX.C51_v_ph",
    "PyX.C51_s_ph",
    "PyX.C51_u_ph",
    "PyX.C51_Cp_ph",
    "PyX.C51_Cv_ph",
    "PyX.C51_w_ph",
    "PyX.C51_v_ps",
    "PyX.C51_h_ps",
    "PyX.C51_u_ps",
    "PyX.C51_Cp_ps",
    "PyX.C51_Cv_ps",
    "PyX.C51_w_ps",
    "PyX.C51_s_ph_region3",
    "PyX.C51_u_ph_region3",
    "PyX.C51_Cp_ph_region3",
    "PyX.C51_Cv_ph_region3",
    "PyX.C51_w_ph_region3",
    "PyX.C51_h_ps_region3",
    "PyX.C51_u_ps_region3",
    "PyX.C51_Cp_ps_region3",
    "PyX.C51_Cv_ps_region3",
    "PyX.C51_w_ps_region3",
    "PyX.C51_t_hs",
    "PyX.C51_t_hs_wet",
    "PyX.C51_t_ph_wet",
    "PyX.C51_t_ps_wet",
    "PyX.C51_v_ph_units",
    "PyX.C51_s_ph_units",
    "PyX.C51_u_ph_units",
    "PyX.C51_Cp_ph_units",
    "PyX.C51_Cv_ph_units",
    "PyX.C51_w_ph_units",
    "PyX.C51_v_ps_units",
    "PyX.C51_h_ps_units",
    "PyX.C51_u_ps_units",
    "PyX.C51_Cp_ps_units",
    "PyX.C51_Cv_ps_units",
    "PyX.C51_w_ps_units"
   ],
   "note": "SI units: every arithmetic, so no rounding error either (the returned value or exception is the same). _units: exact arithmetic, every unit system."
  },
  {
   "property": "C52",
   "status": "proved",
   "theorems": [
    "PyX.C52_isobar",
    "PyX.C52_isotherm"
   ],
   "note": "Exact arithmetic, all unit systems."
  },
  {
   "property": "C53",
   "status": "proved",
   "theorems": [
    "PyX.C53_exact",
    "PyX.C53_agrees",
    "PyX.C53_wet",
    "PyX.C53_isotherm_623",
    "PyX.C53_isotherm_1073",
    "PyX.C53_no_region5"
   ],
   "note": "Exact arithmetic. C53_exact covers p below 16.5291 MPa; C53_agrees all pressures, outside the states excluded by Spec.PH.Clear; between 16.5291 and 100 MPa the regions 3 and 4 by (p,h) depend on p3sat_h and are not covered."
  },
  {
   "property": "C54",
   "status": "proved",
   "theorems": [
    "PyX.C54_exact",
    "PyX.C54_agrees",
    "PyX.C54_below_273",
    "PyX.C54_wet_16529",
    "PyX.C54_no_region5"
   ],
   "note": "Exact arithmetic. C54_exact covers p below 16.529 MPa; C54_agrees all pressures, outside the states excluded by Spec.PS.Clear; above 16.529 MPa the regions 3 and 4 by (p,s) depend on p3sat_s and are not covered."
  },
  {
   "property": "C55",
   "status": "proved",
   "theorems": [
    "PyX.C55_T2_ph"
   ],
   "note": "Exact arithmetic, all of region 2; 2404 rectangles checked inside the kernel. t2ph_accurate' gives 30 mK in the subregions 2a and 2b."
  },
  {
   "property": "C56",
   "status": "proved",
   "theorems": [
    "PyX.C56_T5_ph",
    "PyX.C56_T5_ph_gives_up",
    "PyX.C56_T5_ps"
   ],
   "note": "Exact arithmetic."
  },
  {
   "property": "C57",
   "status": "proved",
   "theorems": [
    "PyX.C57_t_ph",
    "PyX.C57_t_ps"
   ],
   "note": "Exact arithmetic, all unit systems."
  },
  {
   "property": "C58",
   "status": "proved",
   "theorems": [
    "PyX.C58_T2_ps"
   ],
   "note": "Exact arithmetic, all of region 2; about 2160 rectangles checked inside the kernel. The fractional exponents are treated by the fourth root of the pressure."
  },
  {
   "property": "C59",
   "status": "proved",
   "theorems": [
    "PyX.C59_value_error"
   ],
   "note": "Exact arithmetic, all unit systems."
  },
  {
   "property": "C60",
   "status": "proved",
   "theorems": [
    "PyX.C60_joint"
   ],
   "note": "Exact arithmetic, all unit systems."
  },
  {
   "property": "C61",
   "status": "proved",
   "theorems": [
    "PyX.C61_gap"
   ],
   "note": "Exact arithmetic, all unit systems."
  },
  {
   "property": "C62",
   "status": "proved",
   "theorems": [
    "PyX.C62_T3_ph"
   ],
   "note": "Exact arithmetic, the states described by Spec.R3.Stable: the single-phase states of region 3 and a margin of metastable ones; about 1160 rectangles checked inside the kernel."
  },
  {
   "property": "C63",
   "status": "proved",
   "theorems": [
    "PyX.C63_v3_ph"
   ],
   "note": "Exact arithmetic, the states described by Spec.R3.Stable; certificates checked inside the kernel."
  },
  {
   "property": "C64",
   "status": "proved",
   "theorems": [
    "PyX.C64_my_pt",
    "PyX.C64_my_ph"
   ],
   "note": "Exact arithmetic, all unit systems; C64_my_ph asks for t_ph between 272 K and 1173.15 K and p up to 100 MPa."
  },
  {
   "property": "C65",
   "status": "proved",
   "theorems": [
    "PyX.C65_tc_pt",
    "PyX.C65_tc_ph",
    "PyX.C65_tc_hs",
    "PyX.C65_tcL_p",
    "PyX.C65_tcV_p",
    "PyX.C65_tcL_t",
    "PyX.C65_tcV_t"
   ],
   "note": "Exact arithmetic, all unit systems; the specific volume, and where computed the temperature and pressure, are hypotheses, shown to hold in C66, C67."
  },
  {
   "property": "C66",
   "status": "proved",
   "theorems": [
    "PyX.C66_positive_transport"
   ],
   "note": "Exact arithmetic, all unit systems."
  },
  {
   "property": "C67",
   "status": "proved",
   "theorems": [
    "PyX.C67_latent_heat",
    "PyX.C67_phases",
    "PyX.C67_conductivity"
   ],
   "note": "Exact arithmetic, all unit systems; the region 3 part of the saturation line (above 16.529 MPa) is not covered."
  },
  {
   "property": "C68",
   "status": "proved",
   "theorems": [
    "PyX.C68_h4L_p",
    "PyX.C68_h4V_p",
    "PyX.C68_latent_heat",
    "PyX.C68_fraction",
    "PyX.C68_clamp"
   ],
   "note": "Exact arithmetic; the calls in all unit systems. The results of the bisections are compared with p3sat_h itself, not with the saturation pressure of region 4."
  },
  {
   "property": "C69",
   "status": "proved",
   "theorems": [
    "PyX.C69_ph_super",
    "PyX.C69_ph_sub",
    "PyX.C69_ps_super",
    "PyX.C69_ps_sub"
   ],
   "note": "Exact arithmetic. The strips 22.06395 <= p < 22.064 (enthalpy) and 22.063 <= p < 22.064 (entropy), where the maximum of the fit lies, are not covered."
  },
  {
   "property": "C70",
   "status": "proved",
   "theorems": [
    "PyX.C70_ph",
    "PyX.C70_ps",
    "PyX.C70_volumes",
    "PyX.C70_vx"
   ],
   "note": "Exact arithmetic, all unit systems; below region 3."
  },
  {
   "property": "C71",
   "status": "proved",
   "theorems": [
    "PyX.C71_ph",
    "PyX.C71_ps"
   ],
   "note": "Exact arithmetic, all unit systems; a strip as wide as the accuracy of the backward equations along the borders is left out."
  },
  {
   "property": "C72",
   "status": "proved",
   "theorems": [
    "PyX.C72_ph",
    "PyX.C72_region"
   ],
   "note": "Exact arithmetic, all unit systems; which states region_ph puts into region 3 is C69."
  },
  {
   "property": "C73",
   "status": "proved",
   "theorems": [
    "PyX.C73_region_hs",
    "PyX.C73_p_hs",
    "PyX.C73_t_hs"
   ],
   "note": "Exact arithmetic. Within 0.1 MPa of saturation and above s = 3.3978 the classification is not claimed."
  },
  {
   "property": "C74",
   "status": "proved",
   "theorems": [
    "PyX.C74_cold_water_refused",
    "PyX.C74_thin_steam_refused"
   ],
   "note": "Exact arithmetic."
  },
  {
   "property": "C75",
   "status": "proved",
   "theorems": [
    "PyX.C75_liquid",
    "PyX.C75_steam",
    "PyX.C75_wet"
   ],
   "note": "Exact arithmetic. Region 3, and the liquid between 3 and 10 degrees Celsius, are not claimed."
  },
  {
   "property": "C76",
   "status": "proved",
   "theorems": [
    "PyX.C76_region5",
    "PyX.C76_hot_steam_refused"
   ],
   "note": "Exact arithmetic. From 1080 K on; pressures between 16.5291 and 16.5292 MPa excepted. What h_prho then does in region 5 is C28."
  },
  {
   "property": "C77",
   "status": "proved",
   "theorems": [
    "PyX.C77_search",
    "PyX.C77_classified",
    "PyX.C77_region3",
    "PyX.C77_middle"
   ],
   "note": "Exact arithmetic. Densities from 96.6 to 772.8 kg/m3. Outside 400 to 609 kg/m3 or below 22.064 MPa the classification by region_prho is a hypothesis."
  },
  {
   "property": "C78",
   "status": "proved",
   "theorems": [
    "PyX.C78_thin",
    "PyX.C78_dense_ph",
    "PyX.C78_dense_ps",
    "PyX.C78_cold"
   ],
   "note": "Exact arithmetic. Region 5 by enthalpy: pressures between 16.5291 and 16.5292 MPa excepted. Methods that do not switch over the region (x, vx, tc, pr, my_ps) are not claimed."
  },
  {
   "property": "C79",
   "status": "proved",
   "theorems": [
    "PyX.C79_area",
    "PyX.C79_hs"
   ],
   "note": "Exact arithmetic. In the two named gaps of entropy it is not proved that region_hs returns (T2_ps could be 0 K there), only that nothing but 0 is returned."
  },
  {
   "property": "C80",
   "status": "proved",
   "theorems": [
    "PyX.C80_state",
    "PyX.C80_ph",
    "PyX.C80_pt"
   ],
   "note": "Exact arithmetic. C80_pt assumes that h_pt returned without a warning: h3_pT is not proved to converge."
  },
  {
   "property": "C81",
   "status": "proved",
   "theorems": [
    "PyX.C81_pairs",
    "PyX.C81_by_temperature",
    "PyX.C81_h_tx",
    "PyX.C81_sentinel",
    "PyX.C81_volume"
   ],
   "note": "Exact arithmetic. Between 16.529 and 16.5292 MPa (623.149 and 623.1502 K) the functions by pressure already use region 3 while those by temperature still use regions 1 and 2; nothing is claimed there. C81_sentinel and C81_volume record defects."
  },
  {
   "property": "C82",
   "status": "proved",
   "theorems": [
    "PyX.C82_slopes",
    "PyX.C82_user"
   ],
   "note": "Exact arithmetic. On the borders of a region the slope is taken within the region; C82_user needs the state to be in the interior along the temperature."
  },
  {
   "property": "C83",
   "status": "proved",
   "theorems": [
    "PyX.C83_psat_t",
    "PyX.C83_tsat_p",
    "PyX.C83_region",
    "PyX.C83_refused"
   ],
   "note": "For every arithmetic with FP.Digits15; FP.binary64 (binary64 with correctly rounded pow) is proved to be one. A libm pow with an error of a few units in the last place also is one."
  },
  {
   "property": "C84",
   "status": "proved",
   "theorems": [
    "PyX.C84_region1",
    "PyX.C84_region5",
    "PyX.C84_region5_s"
   ],
   "note": "For every arithmetic with FP.Digits15 (and FP.Log14 for the entropy of region 5); FP.binary64 is proved to be one. The bounds are worst case sums over all terms and far from sharp. Regions 2 and 3 are not covered."
  }
 ]
}