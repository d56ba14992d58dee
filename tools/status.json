{
 "C01": {
  "note": "Any number type, all twelve functions; px/hx/sx echo inside their accepted range.",
  "status": "proved"
 },
 "C02": {
  "note": "Any number type; includes the exact behaviour for region arguments outside 1..5 and 10.",
  "status": "proved"
 },
 "C03": {
  "note": "Any number type; the entry-point bodies are modelled separately. Calling conventions are outside the model.",
  "status": "proved"
 },
 "C04": {
  "note": "Any number type; exhaustive over the dispatch chains.",
  "status": "proved"
 },
 "C05": {
  "note": "Exact arithmetic, both directions, with the disjointness and totality of the map. The one departure of the code, p equal to the minimum pressure below saturation, is proved in C05_gap.",
  "status": "partial"
 },
 "C06": {
  "note": "Any number type; path analysis of the eight detectors.",
  "status": "proved"
 },
 "C07": {
  "note": "Any number type.",
  "status": "proved"
 },
 "C08": {
  "note": "Any number type satisfying the IEEE laws of NaN; all eight detectors; Option R instance shows the laws are satisfiable.",
  "status": "proved"
 },
 "C09": {
  "note": "Proved for all 39 (table, steps) pairs except subregion 3l, whose step list drops the last coefficient: C09_3l_wrong_volume proves the violation.",
  "status": "partial"
 },
 "C10": {
  "note": "Exact arithmetic, any table, any step list; bases non-zero, which C12_range shows for the whole IF97 range of regions 1, 2, 5.",
  "status": "proved"
 },
 "C11": {
  "note": "Exact arithmetic, any coefficient table.",
  "status": "proved"
 },
 "C12": {
  "note": "Exact arithmetic, at the API.",
  "status": "proved"
 },
 "C13": {
  "note": "Exact arithmetic, at the API (tv in region 3).",
  "status": "proved"
 },
 "C14": {
  "note": "Exact arithmetic, at the API.",
  "status": "proved"
 },
 "C15": {
  "note": "Exact arithmetic, at the API; also region 3 OCP.",
  "status": "proved"
 },
 "C16": {
  "note": "Exact arithmetic, at the API.",
  "status": "proved"
 },
 "C17": {
  "note": "Exact arithmetic, at the API; also the Helmholtz form in region 3.",
  "status": "proved"
 },
 "C18": {
  "note": "Proved in regions 1, 2, 3. The code violates it in region 5: C18_region5_actual gives what is computed, C18_region5_violated a counterexample.",
  "status": "partial"
 },
 "C19": {
  "note": "Proved in regions 1, 2, 3. In region 5 it holds with the true cv (C19_gibbs) but not with the returned OCV: C19_region5_violated.",
  "status": "partial"
 },
 "C20": {
  "note": "Proved in regions 1, 2, 5. The code violates it in region 3: C20_region3_iff says exactly where, C20_region3_violated is a counterexample.",
  "status": "partial"
 },
 "C21": {
  "note": "OJTC proved in all single-phase regions. OIJTC is 0.001 times the documented quantity: C21_ijtc_*; C21_ijtc_violated is a counterexample.",
  "status": "partial"
 },
 "C22": {
  "note": "Any number type for the code's own order of operations; textbook forms over the reals.",
  "status": "proved"
 },
 "C23": {
  "note": "Exact for pt in every region and tv in region 3 in the code's own arithmetic. OKV = ODV/OD in regions 1, 2, 5; in region 3 the code multiplies: C23_region3_actual, C23_region3_violated.",
  "status": "partial"
 },
 "C24": {
  "note": "Diffusivity proved in all regions, Prandtl number in region 3. In regions 1, 2, 5 the code evaluates the Prandtl number at density 1/T: C24_prandtl_actual, C24_prandtl_iff, C24_prandtl_violated.",
  "status": "partial"
 },
 "C25": {
  "note": "Exact arithmetic, wherever both calls accept. At the two ends of the range the pair of guards disagrees by rounding of constants: C25_top_mismatch, C25_bottom_mismatch.",
  "status": "proved"
 },
 "C26": {
  "note": "Exact arithmetic, through px and tx.",
  "status": "proved"
 },
 "C27": {
  "note": "Exact arithmetic; round trips within 1e-9 K and 1e-10 MPa.",
  "status": "proved"
 },
 "C28": {
  "note": "Proved for px and tx on the whole accepted range except the two narrow gaps named in the theorem comment (between the rounded 623.15 K pressure constants, and the last 1e-6 before the critical point) and except density above 350 C, where the code answers an error.",
  "status": "partial"
 },
 "C29": {
  "note": "Exact arithmetic: returned quality equals the given one with region 4 given (whole range below 350 C), and without a region up to 16.529 MPa. Above 350 C under the hypothesis that the two saturated values differ.",
  "status": "partial"
 },
 "C30": {
  "note": "The ends x=0, x=1 are proved. The code interpolates OD linearly, so OD*OV=1 fails for every 0<x<1: C30_actual, C30_violated, C30_high_violated.",
  "status": "partial"
 },
 "C31": {
  "note": "Saturated end points proved equal to the single-phase values on the same range as C28; C31_density_violated: density above 623.15 K is the error code -1000.",
  "status": "partial"
 },
 "C32": {
  "note": "Any number type; any function.",
  "status": "proved"
 },
 "C33": {
  "note": "Every state an iterative inversion returns reproduces the given property or lies within the published limits, except: pv in region 2 may be 0.001 K outside; pv in region 1 may reach 350.01 degC or, on failure, uses -9999 as a kelvin temperature; tv in region 1 is only shown positive; early exits reproduce the property to 1e-8 but are not clamped",
  "status": "partial"
 },
 "C34": {
  "note": "Exact arithmetic: the result of hx and sx is a bracketed zero of the quality residual to the bisection tolerance.",
  "status": "proved"
 },
 "C35": {
  "note": "pt, ph, ps, pv, ts, px, tx, hx, sx for any arithmetic; tv and th in exact arithmetic; hs unless region 4 is used with an entropy outside (5.210887825, 9.155759395). The claim is false of the code for hs: C35_hs_violated proves that hs(1680, s) never returns for every s from 3.792947 to 3.792949 (the second, uncounted loop of the region 4 inversion).",
  "status": "partial"
 },
 "C36": {
  "note": "Total for any arithmetic; the published subregion for 16.529 < p <= 100 MPa and all T except the set Wrong; on Wrong the code departs from the release (3c and 3k are overwritten between psat(643.15 K) and 22.5 MPa), shown for all such states, and pt(22.356, 362.55, OV) is negative",
  "status": "partial"
 },
 "C37": {
  "note": "Violated: C37_violated shows tv, th, ts reject every temperature from above 590 C to 800 C, a part of region 2. C37_pt_assigns is the part that holds.",
  "status": "partial"
 },
 "C38": {
  "note": "Violated: C38_violated; C38_actual states what the code does instead.",
  "status": "partial"
 },
 "C39": {
  "note": "Guards proved; C39_tx_violated gives the asymmetry between px and tx.",
  "status": "partial"
 },
 "C40": {
  "note": "All other limits are inclusive; the minimum pressure is rejected for 0.001..350 C: C40_violated.",
  "status": "partial"
 },
 "C41": {
  "note": "Exact arithmetic: strict order of the saturated phases up to 623.15 K through tx, px; the sign facts come from certified interval subdivision.",
  "status": "proved"
 },
 "C42": {
  "note": "Exact arithmetic, regions 1, 2, 5: v > 0, cp > 0, kT > 0; monotone isobars and isotherms; unique inversion; positive expansion of steam and of water from 5 C. cv > 0 and real speed of sound are proved as C52. Region 3 by (t,v), outside a window around the critical point, is C55; missing: region 3 by (p,t), where the code does return negative volumes (C36).",
  "status": "partial"
 },
 "C43": {
  "note": "",
  "status": "proved"
 },
 "C44": {
  "note": "Exact arithmetic, all T >= 273.15 K and all densities, through pt and tv.",
  "status": "proved"
 },
 "C45": {
  "note": "",
  "status": "proved"
 },
 "C46": {
  "note": "Any number type; all eight pair functions, regions 1, 2, 3, 5, all inputs.",
  "status": "proved"
 },
 "C47": {
  "note": "Exact arithmetic. Proved for (p,h), (p,s) in regions 1, 2 and in 5 from 800.1 C (region 3: C56); (p,v) in 2 and in 5 from 800.15 C (outside 16.529 to 22.064 MPa); (t,v) in 1, 2, 5; (t,s) in 1 from 5 C, 2, 5; (t,h) in 1 up to 200 C, 2, 5. The code departs for (p,v) and (t,s) of cold water (C47_pv_violated, C47_ts_violated), within 0.15 K above 800 C, where the equations of regions 2 and 5 do not meet (C47_ph_5_violated, C47_ps_5_violated, C47_pv_5_violated), at p = 100 MPa for tv/ts, above 590 C for tv/th/ts (C37) and between the two B23 forms.",
  "status": "partial"
 },
 "C48": {
  "note": "Exact arithmetic. Proved for tv and ts with and without a region and for th with region 4 given. th without a region takes mixtures of small quality below 250 C for water (C48_th_actual, C48_th_violated); it is right otherwise (C48_th_partial).",
  "status": "partial"
 },
 "C49": {
  "note": "Exact arithmetic, all states of regions 2 and 5, region 1 up to 200 C.",
  "status": "proved"
 },
 "C50": {
  "note": "Exact arithmetic, all states of region 1; hs with the region given.",
  "status": "proved"
 },
 "C51": {
  "note": "Exact arithmetic, all states of region 2; region detected outside the strip between the two B23 forms.",
  "status": "proved"
 },
 "C52": {
  "note": "Regions 1, 2, 5, every state of the region, region given or detected. OCV of region 5 is the returned value, which is not the release's cv (C18).",
  "status": "proved"
 },
 "C53": {
  "note": "Exact arithmetic, all states of region 2; region detected outside the strip between the two B23 forms.",
  "status": "proved"
 },
 "C54": {
  "note": "exact arithmetic; the region is given by the caller",
  "status": "proved"
 },
 "C55": {
  "note": "Region 3 stability by (t,v): kappa_T, c_v, c_p, w, (dp/dT)_v positive; isotherms and isochores monotone above 373.95 degC. A window around the critical point is excluded in the statement, with a counterexample inside it.",
  "status": "proved"
 },
 "C56": {
  "note": "exact arithmetic; states at least 0.05 K from 350 degC and B23 and 0.1 K from saturation; within a few mK of B23 the code departs (C56_border_ph)",
  "status": "proved"
 },
 "C57": {
  "note": "exact arithmetic; above 373.95 degC",
  "status": "proved"
 },
 "C58": {
  "note": "Exact arithmetic, every pair of states of one region (1, 2, 5, and 3 above 373.95 degC).",
  "status": "proved"
 },
 "C59": {
  "note": "Exact arithmetic, every pair of states of one region (1, 2, 5, and 3 above 373.95 degC) on a common isobar, isotherm or isochore.",
  "status": "proved"
 },
 "C60": {
  "note": "Exact arithmetic, isobars from 0 to 350 degC saturation, no region named.",
  "status": "proved"
 },
 "C61": {
  "note": "Exact arithmetic, isotherms from 0 to 350 degC, no region named.",
  "status": "proved"
 },
 "C62": {
  "note": "Exact arithmetic, every pair of states of one of the regions 1, 2, 5.",
  "status": "proved"
 }
}