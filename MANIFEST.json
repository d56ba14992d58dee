{
 "claims": [
  {
   "property": "C01",
   "status": "proved",
   "theorems": [
    "If97.C01_echo",
    "If97.C01_echo0",
    "If97.C01_echo_hx",
    "If97.C01_echo_px",
    "If97.C01_echo_sx",
    "If97.C01_echo_tx"
   ],
   "note": "Any number type, all twelve functions; px/hx/sx echo inside their accepted range."
  },
  {
   "property": "C02",
   "status": "proved",
   "theorems": [
    "If97.C02_region_consistent",
    "If97.C02_region_echo",
    "If97.C02_region_formula",
    "If97.C02_region_none",
    "If97.C02_region_other",
    "If97.C02_region_quality"
   ],
   "note": "Any number type; includes the exact behaviour for region arguments outside 1..5 and 10."
  },
  {
   "property": "C03",
   "status": "proved",
   "theorems": [
    "If97.C03_bindings",
    "If97.C03_bindings_x"
   ],
   "note": "Any number type; the entry-point bodies are modelled separately. Calling conventions are outside the model."
  },
  {
   "property": "C04",
   "status": "proved",
   "theorems": [
    "If97.C04_unknown_id",
    "If97.C04_unknown_id_pt4",
    "If97.C04_unknown_id_x"
   ],
   "note": "Any number type; exhaustive over the dispatch chains."
  },
  {
   "property": "C05",
   "status": "partial",
   "theorems": [
    "If97.C05_bad_pressure",
    "If97.C05_bad_pressure_hot",
    "If97.C05_bad_temperature",
    "If97.C05_gap",
    "If97.C05_gap_inhabited",
    "If97.C05_map_partial",
    "If97.C05_total"
   ],
   "note": "Exact arithmetic, both directions, with the disjointness and totality of the map. The one departure of the code, p equal to the minimum pressure below saturation, is proved in C05_gap."
  },
  {
   "property": "C06",
   "status": "proved",
   "theorems": [
    "If97.C06_OR",
    "If97.C06_closed"
   ],
   "note": "Any number type; path analysis of the eight detectors."
  },
  {
   "property": "C07",
   "status": "proved",
   "theorems": [
    "If97.C07_error_code",
    "If97.C07_error_documented"
   ],
   "note": "Any number type."
  },
  {
   "property": "C08",
   "status": "proved",
   "theorems": [
    "If97.C08_call",
    "If97.C08_detect"
   ],
   "note": "Any number type satisfying the IEEE laws of NaN; all eight detectors; Option R instance shows the laws are satisfiable."
  },
  {
   "property": "C09",
   "status": "partial",
   "theorems": [
    "If97.C09_3l_missing_term",
    "If97.C09_3l_no_panic",
    "If97.C09_3l_visited",
    "If97.C09_3l_wrong_volume",
    "If97.C09_consecutive",
    "If97.C09_region1",
    "If97.C09_region2",
    "If97.C09_region3",
    "If97.C09_steps_general",
    "If97.C09_steps_partial",
    "If97.C09_visited"
   ],
   "note": "Proved for all 39 (table, steps) pairs except subregion 3l, whose step list drops the last coefficient: C09_3l_wrong_volume proves the violation."
  },
  {
   "property": "C10",
   "status": "proved",
   "theorems": [
    "If97.C10_0_j",
    "If97.C10_0_j_steps",
    "If97.C10_i_ii_ij_jj",
    "If97.C10_i_ii_ij_jj_steps",
    "If97.C10_i_ii_steps",
    "If97.C10_i_ij_steps",
    "If97.C10_i_j",
    "If97.C10_i_j_steps",
    "If97.C10_ij_steps"
   ],
   "note": "Exact arithmetic, any table, any step list; bases non-zero, which C12_range shows for the whole IF97 range of regions 1, 2, 5."
  },
  {
   "property": "C11",
   "status": "proved",
   "theorems": [
    "If97.C11_i",
    "If97.C11_ii",
    "If97.C11_ij",
    "If97.C11_j",
    "If97.C11_ji",
    "If97.C11_jj"
   ],
   "note": "Exact arithmetic, any coefficient table."
  },
  {
   "property": "C12",
   "status": "proved",
   "theorems": [
    "If97.C12_entropy",
    "If97.C12_range",
    "If97.C12_volume"
   ],
   "note": "Exact arithmetic, at the API."
  },
  {
   "property": "C13",
   "status": "proved",
   "theorems": [
    "If97.C13_entropy",
    "If97.C13_pressure",
    "If97.C13_pressure_density"
   ],
   "note": "Exact arithmetic, at the API (tv in region 3)."
  },
  {
   "property": "C14",
   "status": "proved",
   "theorems": [
    "If97.C14_gibbs",
    "If97.C14_region3"
   ],
   "note": "Exact arithmetic, at the API."
  },
  {
   "property": "C15",
   "status": "proved",
   "theorems": [
    "If97.C15_cp",
    "If97.C15_region3_cp",
    "If97.C15_region3_cv",
    "If97.C15_region3_partials"
   ],
   "note": "Exact arithmetic, at the API; also region 3 OCP."
  },
  {
   "property": "C16",
   "status": "proved",
   "theorems": [
    "If97.C16_gibbs_coefficients",
    "If97.C16_gibbs_derivatives",
    "If97.C16_region3_coefficients",
    "If97.C16_region3_derivatives"
   ],
   "note": "Exact arithmetic, at the API."
  },
  {
   "property": "C17",
   "status": "proved",
   "theorems": [
    "If97.C17_gibbs",
    "If97.C17_region3"
   ],
   "note": "Exact arithmetic, at the API; also the Helmholtz form in region 3."
  },
  {
   "property": "C18",
   "status": "partial",
   "theorems": [
    "If97.C18_region3_partial",
    "If97.C18_region5_actual",
    "If97.C18_region5_violated",
    "If97.C18_regions12_partial"
   ],
   "note": "Proved in regions 1, 2, 3. The code violates it in region 5: C18_region5_actual gives what is computed, C18_region5_violated a counterexample."
  },
  {
   "property": "C19",
   "status": "partial",
   "theorems": [
    "If97.C19_gibbs",
    "If97.C19_region3_partial",
    "If97.C19_region5_violated",
    "If97.C19_regions12_partial"
   ],
   "note": "Proved in regions 1, 2, 3. In region 5 it holds with the true cv (C19_gibbs) but not with the returned OCV: C19_region5_violated."
  },
  {
   "property": "C20",
   "status": "partial",
   "theorems": [
    "If97.C20_gibbs_partial",
    "If97.C20_region3_actual",
    "If97.C20_region3_iff",
    "If97.C20_region3_violated"
   ],
   "note": "Proved in regions 1, 2, 5. The code violates it in region 3: C20_region3_iff says exactly where, C20_region3_violated is a counterexample."
  },
  {
   "property": "C21",
   "status": "partial",
   "theorems": [
    "If97.C21_ijtc_gibbs",
    "If97.C21_ijtc_region3",
    "If97.C21_ijtc_violated",
    "If97.C21_jtc_gibbs_partial",
    "If97.C21_jtc_region3_partial"
   ],
   "note": "OJTC proved in all single-phase regions. OIJTC is 0.001 times the documented quantity: C21_ijtc_*; C21_ijtc_violated is a counterexample."
  },
  {
   "property": "C22",
   "status": "proved",
   "theorems": [
    "If97.C22_gibbs",
    "If97.C22_gibbs_real",
    "If97.C22_region3",
    "If97.C22_region3_real"
   ],
   "note": "Any number type for the code's own order of operations; textbook forms over the reals."
  },
  {
   "property": "C23",
   "status": "partial",
   "theorems": [
    "If97.C23_gibbs_partial",
    "If97.C23_pt",
    "If97.C23_region3_actual",
    "If97.C23_region3_tv",
    "If97.C23_region3_violated"
   ],
   "note": "Exact for pt in every region and tv in region 3 in the code's own arithmetic. OKV = ODV/OD in regions 1, 2, 5; in region 3 the code multiplies: C23_region3_actual, C23_region3_violated."
  },
  {
   "property": "C24",
   "status": "partial",
   "theorems": [
    "If97.C24_diffusivity_gibbs",
    "If97.C24_diffusivity_region3",
    "If97.C24_prandtl_actual",
    "If97.C24_prandtl_iff",
    "If97.C24_prandtl_region3_partial",
    "If97.C24_prandtl_violated"
   ],
   "note": "Diffusivity proved in all regions, Prandtl number in region 3. In regions 1, 2, 5 the code evaluates the Prandtl number at density 1/T: C24_prandtl_actual, C24_prandtl_iff, C24_prandtl_violated."
  },
  {
   "property": "C25",
   "status": "proved",
   "theorems": [
    "If97.C25_accepted",
    "If97.C25_accepted_p",
    "If97.C25_bottom_mismatch",
    "If97.C25_p_t_p",
    "If97.C25_t_p_t",
    "If97.C25_top_mismatch"
   ],
   "note": "Exact arithmetic, wherever both calls accept. At the two ends of the range the pair of guards disagrees by rounding of constants: C25_top_mismatch, C25_bottom_mismatch."
  },
  {
   "property": "C26",
   "status": "proved",
   "theorems": [
    "If97.C26_equation",
    "If97.C26_outside",
    "If97.C26_pressure_continuous",
    "If97.C26_pressure_increasing",
    "If97.C26_temperature_increasing"
   ],
   "note": "Exact arithmetic, through px and tx."
  },
  {
   "property": "C27",
   "status": "proved",
   "theorems": [
    "If97.C27_T2p_increasing",
    "If97.C27_T_p_T",
    "If97.C27_p2T_increasing",
    "If97.C27_p_T_p"
   ],
   "note": "Exact arithmetic; round trips within 1e-9 K and 1e-10 MPa."
  },
  {
   "property": "C28",
   "status": "partial",
   "theorems": [
    "If97.C28_other_outputs",
    "If97.C28_px_partial",
    "If97.C28_tx_partial"
   ],
   "note": "Proved for px and tx on the whole accepted range except the two narrow gaps named in the theorem comment (between the rounded 623.15 K pressure constants, and the last 1e-6 before the critical point) and except density above 350 C, where the code answers an error."
  },
  {
   "property": "C29",
   "status": "partial",
   "theorems": [
    "If97.C29_auto",
    "If97.C29_high_partial",
    "If97.C29_region4"
   ],
   "note": "Exact arithmetic: returned quality equals the given one with region 4 given (whole range below 350 C), and without a region up to 16.529 MPa. Above 350 C under the hypothesis that the two saturated values differ."
  },
  {
   "property": "C30",
   "status": "partial",
   "theorems": [
    "If97.C30_actual",
    "If97.C30_ends_partial",
    "If97.C30_high_violated",
    "If97.C30_violated"
   ],
   "note": "The ends x=0, x=1 are proved. The code interpolates OD linearly, so OD*OV=1 fails for every 0<x<1: C30_actual, C30_violated, C30_high_violated."
  },
  {
   "property": "C31",
   "status": "partial",
   "theorems": [
    "If97.C31_density_violated",
    "If97.C31_px_partial",
    "If97.C31_tx_partial"
   ],
   "note": "Saturated end points proved equal to the single-phase values on the same range as C28; C31_density_violated: density above 623.15 K is the error code -1000."
  },
  {
   "property": "C32",
   "status": "proved",
   "theorems": [
    "If97.C32_first_variable",
    "If97.C32_limit",
    "If97.C32_meaning",
    "If97.C32_residual",
    "If97.C32_second_variable"
   ],
   "note": "Any number type; any function."
  },
  {
   "property": "C33",
   "status": "partial",
   "theorems": [
    "If97.C33_region1_T_partial",
    "If97.C33_region1_th",
    "If97.C33_region1_ts_partial",
    "If97.C33_region1_tv_partial",
    "If97.C33_region2_P_partial",
    "If97.C33_region2_T_partial",
    "If97.C33_region5_P_partial",
    "If97.C33_region5_T",
    "If97.C33_region5_hs"
   ],
   "note": "Every state an iterative inversion returns reproduces the given property or lies within the published limits, except: pv in region 2 may be 0.001 K outside; pv in region 1 may reach 350.01 degC or, on failure, uses -9999 as a kelvin temperature; tv in region 1 is only shown positive; early exits reproduce the property to 1e-8 but are not clamped"
  },
  {
   "property": "C34",
   "status": "proved",
   "theorems": [
    "If97.C34_hx",
    "If97.C34_sx",
    "If97.C34_temperature"
   ],
   "note": "Exact arithmetic: the result of hx and sx is a bracketed zero of the quality residual to the bisection tolerance."
  },
  {
   "property": "C35",
   "status": "partial",
   "theorems": [
    "If97.C35_counted",
    "If97.C35_hs_bisection",
    "If97.C35_hs_partial",
    "If97.C35_hs_violated",
    "If97.C35_quality",
    "If97.C35_th",
    "If97.C35_tv"
   ],
   "note": "pt, ph, ps, pv, ts, px, tx, hx, sx for any arithmetic; tv and th in exact arithmetic; hs unless region 4 is used with an entropy outside (5.210887825, 9.155759395). The claim is false of the code for hs: C35_hs_violated proves that hs(1680, s) never returns for every s from 3.792947 to 3.792949 (the second, uncounted loop of the region 4 inversion)."
  },
  {
   "property": "C36",
   "status": "partial",
   "theorems": [
    "If97.C36_negative_volume",
    "If97.C36_published_partial",
    "If97.C36_total",
    "If97.C36_wrong_c",
    "If97.C36_wrong_k"
   ],
   "note": "Total for any arithmetic; the published subregion for 16.529 < p <= 100 MPa and all T except the set Wrong; on Wrong the code departs from the release (3c and 3k are overwritten between psat(643.15 K) and 22.5 MPa), shown for all such states, and pt(22.356, 362.55, OV) is negative"
  },
  {
   "property": "C37",
   "status": "partial",
   "theorems": [
    "If97.C37_pt_assigns",
    "If97.C37_violated"
   ],
   "note": "Violated: C37_violated shows tv, th, ts reject every temperature from above 590 C to 800 C, a part of region 2. C37_pt_assigns is the part that holds."
  },
  {
   "property": "C38",
   "status": "partial",
   "theorems": [
    "If97.C38_actual",
    "If97.C38_critical_partial",
    "If97.C38_on_the_line",
    "If97.C38_violated"
   ],
   "note": "Violated: C38_violated; C38_actual states what the code does instead."
  },
  {
   "property": "C39",
   "status": "partial",
   "theorems": [
    "If97.C39_guard_partial",
    "If97.C39_tx_echo",
    "If97.C39_tx_violated"
   ],
   "note": "Guards proved; C39_tx_violated gives the asymmetry between px and tx."
  },
  {
   "property": "C40",
   "status": "partial",
   "theorems": [
    "If97.C40_accepted_iff",
    "If97.C40_inclusive_partial",
    "If97.C40_minimum_pressure_hot",
    "If97.C40_violated"
   ],
   "note": "All other limits are inclusive; the minimum pressure is rejected for 0.001..350 C: C40_violated."
  },
  {
   "property": "C41",
   "status": "proved",
   "theorems": [
    "If97.C41_px",
    "If97.C41_tx",
    "If97.C41_volume_density"
   ],
   "note": "Exact arithmetic: strict order of the saturated phases up to 623.15 K through tx, px; the sign facts come from certified interval subdivision."
  },
  {
   "property": "C42",
   "status": "partial",
   "theorems": [
    "If97.C42_expansion",
    "If97.C42_isobar",
    "If97.C42_isotherm",
    "If97.C42_positive",
    "If97.C42_positive_auto",
    "If97.C42_unique"
   ],
   "note": "Exact arithmetic, regions 1, 2, 5: v > 0, cp > 0, kT > 0; monotone isobars and isotherms; unique inversion; positive expansion of steam and of water from 5 C. cv > 0 and real speed of sound are proved as C52. Region 3 by (t,v), outside a window around the critical point, is C55; missing: region 3 by (p,t), where the code does return negative volumes (C36)."
  },
  {
   "property": "C43",
   "status": "proved",
   "theorems": [
    "If97.C43_all",
    "If97.C43_api",
    "If97.C43_critical",
    "If97.C43_decreasing",
    "If97.C43_positive",
    "If97.C43_pt",
    "If97.C43_tv"
   ],
   "note": ""
  },
  {
   "property": "C44",
   "status": "proved",
   "theorems": [
    "If97.C44_all",
    "If97.C44_conductivity",
    "If97.C44_pt",
    "If97.C44_tv",
    "If97.C44_viscosity"
   ],
   "note": "Exact arithmetic, all T >= 273.15 K and all densities, through pt and tv."
  },
  {
   "property": "C45",
   "status": "proved",
   "theorems": [
    "If97.C45_gibbs",
    "If97.C45_hx",
    "If97.C45_px",
    "If97.C45_region3",
    "If97.C45_region4_hs",
    "If97.C45_region4_p",
    "If97.C45_region4_t",
    "If97.C45_sx"
   ],
   "note": ""
  },
  {
   "property": "C46",
   "status": "proved",
   "theorems": [
    "If97.C46_gibbs",
    "If97.C46_region3"
   ],
   "note": "Any number type; all eight pair functions, regions 1, 2, 3, 5, all inputs."
  },
  {
   "property": "C47",
   "status": "partial",
   "theorems": [
    "If97.C47_ph",
    "If97.C47_ph_5",
    "If97.C47_ph_5_violated",
    "If97.C47_ps",
    "If97.C47_ps_5",
    "If97.C47_ps_5_violated",
    "If97.C47_pv",
    "If97.C47_pv_5",
    "If97.C47_pv_5_violated",
    "If97.C47_pv_violated",
    "If97.C47_th",
    "If97.C47_ts",
    "If97.C47_ts_violated",
    "If97.C47_tv"
   ],
   "note": "Exact arithmetic. Proved for (p,h), (p,s) in regions 1, 2 and in 5 from 800.1 C (region 3: C56); (p,v) in 2 and in 5 from 800.15 C (outside 16.529 to 22.064 MPa); (t,v) in 1, 2, 5; (t,s) in 1 from 5 C, 2, 5; (t,h) in 1 up to 200 C, 2, 5. The code departs for (p,v) and (t,s) of cold water (C47_pv_violated, C47_ts_violated), within 0.15 K above 800 C, where the equations of regions 2 and 5 do not meet (C47_ph_5_violated, C47_ps_5_violated, C47_pv_5_violated), at p = 100 MPa for tv/ts, above 590 C for tv/th/ts (C37) and between the two B23 forms."
  },
  {
   "property": "C48",
   "status": "partial",
   "theorems": [
    "If97.C48_auto",
    "If97.C48_region4",
    "If97.C48_th_actual",
    "If97.C48_th_partial",
    "If97.C48_th_violated"
   ],
   "note": "Exact arithmetic. Proved for tv and ts with and without a region and for th with region 4 given. th without a region takes mixtures of small quality below 250 C for water (C48_th_actual, C48_th_violated); it is right otherwise (C48_th_partial)."
  },
  {
   "property": "C49",
   "status": "proved",
   "theorems": [
    "If97.C49_steam",
    "If97.C49_steam_throttled",
    "If97.C49_water",
    "If97.C49_water_throttled"
   ],
   "note": "Exact arithmetic, all states of regions 2 and 5, region 1 up to 200 C."
  },
  {
   "property": "C50",
   "status": "proved",
   "theorems": [
    "If97.C50_hs_region",
    "If97.C50_ph",
    "If97.C50_ph_region",
    "If97.C50_ps",
    "If97.C50_ps_region"
   ],
   "note": "Exact arithmetic, all states of region 1; hs with the region given."
  },
  {
   "property": "C51",
   "status": "proved",
   "theorems": [
    "If97.C51_ph",
    "If97.C51_ph_region"
   ],
   "note": "Exact arithmetic, all states of region 2; region detected outside the strip between the two B23 forms."
  },
  {
   "property": "C52",
   "status": "proved",
   "theorems": [
    "If97.C52_auto",
    "If97.C52_capacities",
    "If97.C52_identity",
    "If97.C52_sound"
   ],
   "note": "Regions 1, 2, 5, every state of the region, region given or detected. OCV of region 5 is the returned value, which is not the release's cv (C18)."
  },
  {
   "property": "C53",
   "status": "proved",
   "theorems": [
    "If97.C53_ps",
    "If97.C53_ps_region"
   ],
   "note": "Exact arithmetic, all states of region 2; region detected outside the strip between the two B23 forms."
  },
  {
   "property": "C54",
   "status": "proved",
   "theorems": [
    "If97.C54_ph",
    "If97.C54_ps"
   ],
   "note": "exact arithmetic; the region is given by the caller"
  },
  {
   "property": "C55",
   "status": "proved",
   "theorems": [
    "If97.C55_critical",
    "If97.C55_isochore",
    "If97.C55_isotherm",
    "If97.C55_stable",
    "If97.C55_unique"
   ],
   "note": "Region 3 stability by (t,v): kappa_T, c_v, c_p, w, (dp/dT)_v positive; isotherms and isochores monotone above 373.95 degC. A window around the critical point is excluded in the statement, with a counterexample inside it."
  },
  {
   "property": "C56",
   "status": "proved",
   "theorems": [
    "If97.C56_border_ph",
    "If97.C56_ph",
    "If97.C56_ps",
    "If97.C56_region"
   ],
   "note": "exact arithmetic; states at least 0.05 K from 350 degC and B23 and 0.1 K from saturation; within a few mK of B23 the code departs (C56_border_ph)"
  },
  {
   "property": "C57",
   "status": "proved",
   "theorems": [
    "If97.C57_isobar",
    "If97.C57_unique"
   ],
   "note": "exact arithmetic; above 373.95 degC"
  },
  {
   "property": "C58",
   "status": "proved",
   "theorems": [
    "If97.C58_compression",
    "If97.C58_compression3",
    "If97.C58_throttle",
    "If97.C58_unique",
    "If97.C58_unique3",
    "If97.C58_work"
   ],
   "note": "Exact arithmetic, every pair of states of one region (1, 2, 5, and 3 above 373.95 degC)."
  },
  {
   "property": "C59",
   "status": "proved",
   "theorems": [
    "If97.C59_heat",
    "If97.C59_heat3",
    "If97.C59_work",
    "If97.C59_work3"
   ],
   "note": "Exact arithmetic, every pair of states of one region (1, 2, 5, and 3 above 373.95 degC) on a common isobar, isotherm or isochore."
  },
  {
   "property": "C60",
   "status": "proved",
   "theorems": [
    "If97.C60_determined",
    "If97.C60_isobar"
   ],
   "note": "Exact arithmetic, isobars from 0 to 350 degC saturation, no region named."
  },
  {
   "property": "C61",
   "status": "proved",
   "theorems": [
    "If97.C61_determined",
    "If97.C61_isotherm"
   ],
   "note": "Exact arithmetic, isotherms from 0 to 350 degC, no region named."
  },
  {
   "property": "C62",
   "status": "proved",
   "theorems": [
    "If97.C62_compression",
    "If97.C62_heating",
    "If97.C62_throttle"
   ],
   "note": "Exact arithmetic, every pair of states of one of the regions 1, 2, 5."
  }
 ]
}
