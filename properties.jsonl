{"id": "C01", "title": "Input echo", "statement": "Asking a pair function for one of its own two inputs returns that input unchanged (pt/ph/ps/pv for OP; pt/th/ts/tv for OT; ph/th/hs for OH; ps/ts/hs for OS; pv/tv for OV; px/hx/sx/tx likewise, px/hx/sx only inside their accepted range), whatever the region argument and even if the state is invalid.", "quantifier": "all f64 pairs including NaN/inf, all region arguments, all twelve pair functions", "why_tests_cant": "quantifies over every pair of floats and every region argument", "anchors": ["src/rust_if97.rs: pt, ph, ps, pv, th, ts, tv, hs, px, tx, hx, sx"]}
{"id": "C02", "title": "Explicit region bypasses detection", "statement": "pt/ph/ps/pv/th/ts/tv/hs called with (o_id, r), r in 1..5, evaluate the formulas of region r and OR returns r for every state; region 10 behaves exactly like giving no region; any other r makes every ordinary o_id return the number r itself.", "quantifier": "all f64 pairs, all i32 o_id, all i32 region values", "why_tests_cant": "infinite domain of region values, o_ids and states", "anchors": ["src/rust_if97.rs: o_id_region_args", "src/common/propertry_pairs.rs: pair_properties"]}
{"id": "C03", "title": "C, stdcall, Python and Rust bindings agree", "statement": "For every pair function and o_id the cdecl, stdcall and Python entry points return the same value as the Rust function called without a region.", "quantifier": "all f64 pairs and all o_id, 12 functions x 3 bindings", "why_tests_cant": "copies of dispatch code must agree on every input", "anchors": ["src/cdecl_c_if97.rs", "src/stdcall_c_if97.rs", "src/python_if97.rs", "src/rust_if97.rs"]}
{"id": "C04", "title": "Unknown property ids are rejected", "statement": "For a single-phase state (detected or explicit region 1,2,3,5) every o_id outside 0..35 gives -1000 from pt; no unknown id ever yields a property number.", "quantifier": "all i32 o_id outside 0..35, all states", "why_tests_cant": "2^32 ids times all states", "anchors": ["src/r1/region1_pT_ext.rs", "src/r2/region2_pT_ext.rs", "src/r3/region3_Td_ext.rs", "src/r5/region5_pT_ext.rs", "src/common/constant.rs: INVALID_OUTID"]}
{"id": "C05", "title": "(p,t) region map is the IF97 domain", "statement": "Region detection for (p,T) returns 1,2,3,4,5 or an error code exactly according to an independent IF97 domain description (temperature bands, saturation curve with relative tolerance 1e-6, B23 curve, 100/50 MPa limits); the regions are disjoint and cover the accepted domain.", "quantifier": "all real (p,T)", "why_tests_cant": "a map over the whole plane; tests visit points", "anchors": ["src/common/region.rs: pT_sub_region"]}
{"id": "C06", "title": "Region results are a closed set", "statement": "Every pair-function region detection yields one of 1..5 or a documented error code; OR therefore never returns anything else unless an explicit region was supplied.", "quantifier": "all inputs (any number semantics) of the 8 detectors", "why_tests_cant": "all paths through nested guards for every float", "anchors": ["src/common/region.rs"]}
{"id": "C07", "title": "Invalid states propagate their error code", "statement": "When region detection fails, every o_id other than the echoed inputs and OX returns exactly the (negative) error code, and OX returns -9999.", "quantifier": "all invalid states, all o_id", "why_tests_cant": "all out-of-domain states", "anchors": ["src/common/propertry_pairs.rs: pair_properties"]}
{"id": "C08", "title": "NaN inputs are never assigned a region by pt", "statement": "If pressure or temperature is NaN, (p,t) detection returns an error code, never 1..5.", "quantifier": "all NaN payload positions, any other argument", "why_tests_cant": "IEEE comparison semantics over all arguments", "anchors": ["src/common/region.rs: pT_sub_region"]}
{"id": "C09", "title": "Multi-step summation covers every coefficient exactly once", "statement": "The multi-step polynomial evaluators used by the basic equations never index outside their table and return, bit for bit, the same number as the plain loop over the entire table.", "quantifier": "all values of both variables, any floating point semantics, all step lists used in the crate", "why_tests_cant": "a dropped or doubled coefficient may be invisible at test points; indices must be safe for all tables", "anchors": ["src/algo/polynomial_steps.rs", "src/r1/region1_gfe.rs", "src/r2/region2_gfe.rs", "src/r3/region3_hfe.rs"]}
{"id": "C10", "title": "Recursive multi-derivative evaluation equals separate evaluation", "statement": "The fused evaluators that return several derivatives at once return the same values as the individual derivative polynomials whenever the bases are non-zero (and what they return when a base is zero is characterised).", "quantifier": "all tables, all real base values", "why_tests_cant": "identity over all reals and all coefficient tables", "anchors": ["src/algo/polynomial.rs", "src/algo/polynomial_steps.rs"]}
{"id": "C11", "title": "Derivative polynomials are the derivatives", "statement": "poly_i, poly_ii, poly_j, poly_jj, poly_ij are the true first, second and mixed partial derivatives of poly_powi.", "quantifier": "all tables with integer exponents, all non-zero real bases", "why_tests_cant": "derivative statement is a limit over all reals", "anchors": ["src/algo/polynomial.rs"]}
{"id": "C12", "title": "Volume and entropy are derivatives of the Gibbs energy", "statement": "In regions 1, 2 and 5: 1000*OV = dOG/dp at constant T and OS = -dOG/dT at constant p, as exact derivatives, at every (p,T) where the basic equation is defined.", "quantifier": "all real (p,T) with p>0,T>0 away from poles of the table", "why_tests_cant": "analytic identity on a continuum", "anchors": ["src/r1/region1_pT.rs", "src/r2/region2_pT.rs", "src/r5/region5_pT.rs"]}
{"id": "C13", "title": "Region 3 pressure and entropy are derivatives of the Helmholtz energy", "statement": "In region 3: 1000*p = rho^2 * df/drho at constant T and s = -df/dT at constant rho, exactly.", "quantifier": "all real T>0, rho>0", "why_tests_cant": "analytic identity on a continuum", "anchors": ["src/r3/region3_Td.rs", "src/r3/region3_hfe.rs"]}
{"id": "C14", "title": "Energy bookkeeping", "statement": "h = u + 1000 p v, g = h - T s, f = u - T s hold exactly between the returned OH, OU, OG, OF, OS, OV for regions 1,2,3,5 at every state.", "quantifier": "all real states", "why_tests_cant": "identity on a continuum", "anchors": ["src/r1/region1_pT.rs", "src/r2/region2_pT.rs", "src/r3/region3_Td.rs", "src/r5/region5_pT.rs"]}
{"id": "C15", "title": "Heat capacities are derivatives", "statement": "OCP = d OH/dT at constant p in regions 1,2,5; OCV = d OU/dT at constant density in region 3; exactly.", "quantifier": "all real states", "why_tests_cant": "analytic identity on a continuum", "anchors": ["src/r1/region1_pT.rs: pT2cp_reg1", "src/r2/region2_pT.rs", "src/r3/region3_Td.rs", "src/r5/region5_pT.rs"]}
{"id": "C16", "title": "Volume derivatives, expansion and compressibility", "statement": "ODVDT = dOV/dT|p, ODVDP = dOV/dp|T, OEC = ODVDT/OV, OKT = -ODVDP/OV, ODPDT = -ODVDT/ODVDP exactly (regions 1,2,5; region 3 in density form).", "quantifier": "all real states with non-zero denominators", "why_tests_cant": "analytic identity on a continuum", "anchors": ["src/r1/region1_pT_ext.rs", "src/r2/region2_pT_ext.rs", "src/r3/region3_Td_ext.rs", "src/r5/region5_pT_ext.rs"]}
{"id": "C17", "title": "Maxwell relation", "statement": "dOS/dp at constant T equals -1000 * ODVDT at every state of regions 1,2,5.", "quantifier": "all real states", "why_tests_cant": "analytic identity on a continuum", "anchors": ["src/r1/region1_pT.rs", "src/r2/region2_pT.rs", "src/r5/region5_pT.rs"]}
{"id": "C18", "title": "cp - cv relation", "statement": "cp - cv = 1000 T v alpha^2/kappa_T from the returned OCP, OCV, OV, OEC, OKT in every single-phase region.", "quantifier": "all real states of each single-phase region", "why_tests_cant": "identity on a continuum; wrong by a factor close to one at usual test points in region 5", "anchors": ["src/r5/region5_pT.rs: pT2cv_reg5", "src/r1/region1_pT.rs: pT2cv_reg1", "src/r2/region2_pT.rs", "src/r3/region3_Td.rs"]}
{"id": "C19", "title": "Speed of sound relation", "statement": "OW^2 = 1e6 * OV*OCP/(OCV*OKT) whenever the radicand is non-negative, in every single-phase region.", "quantifier": "all real states", "why_tests_cant": "identity on a continuum", "anchors": ["src/r1/region1_pT.rs: pT2w_reg1", "src/r2/region2_pT.rs", "src/r3/region3_Td.rs", "src/r5/region5_pT.rs"]}
{"id": "C20", "title": "Exergy definition is the same in all regions", "statement": "OE = OH - 273.16*OS (reference state: triple-point temperature) in every single-phase region.", "quantifier": "all real states", "why_tests_cant": "identity on a continuum", "anchors": ["src/r1/region1_pT_ext.rs", "src/r2/region2_pT_ext.rs", "src/r3/region3_Td_ext.rs: Td2e_reg3", "src/r5/region5_pT_ext.rs"]}
{"id": "C21", "title": "Throttling coefficients", "statement": "OJTC = -(1/OCP) * (dOH/dp)_T, and OIJTC = (dOH/dp)_T in the documented unit kJ/(kg MPa).", "quantifier": "all real states", "why_tests_cant": "identity on a continuum", "anchors": ["src/r1/region1_pT_ext.rs", "src/r2/region2_pT_ext.rs", "src/r3/region3_Td_ext.rs", "src/r5/region5_pT_ext.rs"]}
{"id": "C22", "title": "Definitional ratios", "statement": "OD = 1/OV, OKS = 1e-6*OW^2/(p*OV), OZ = 1000 p v/(R T), OPC = ODPDT/p, OBETAP = 1/(p*v*OKT), OFU = p*OFI, OALFAP = OPC: each derived property is consistent with the properties it is defined from, for all states.", "quantifier": "all states; bitwise where the code computes it that way, over the reals otherwise", "why_tests_cant": "relation between outputs over all inputs", "anchors": ["src/r1/region1_pT_ext.rs", "src/r2/region2_pT_ext.rs", "src/r3/region3_Td_ext.rs", "src/r5/region5_pT_ext.rs"]}
{"id": "C23", "title": "Kinematic viscosity is dynamic viscosity over density", "statement": "OKV = ODV/OD at every single-phase state.", "quantifier": "all states", "why_tests_cant": "relation between outputs over all inputs", "anchors": ["src/common/propertry_pairs.rs: pair_transport_reg"]}
{"id": "C24", "title": "Prandtl number and thermal diffusivity", "statement": "OPR = 1000 * ODV*OCP/OTC and OTD = OTC/(1000*OCP*OD) at every single-phase state.", "quantifier": "all states", "why_tests_cant": "relation between outputs over all inputs", "anchors": ["src/common/propertry_pairs.rs: pair_transport_reg", "src/common/transport_further.rs"]}
{"id": "C25", "title": "Saturation temperature inverts saturation pressure", "statement": "T_sat(p_sat(T)) = T and p_sat(T_sat(p)) = p in exact arithmetic over the whole saturation range accepted by both functions.", "quantifier": "all real T in [273.15, 647.096], all real p in the accepted range", "why_tests_cant": "algebraic inverse on a continuum", "anchors": ["src/r4/region4_sat_pT.rs: p_saturation, T_saturation"]}
{"id": "C26", "title": "Saturation curve is strictly increasing and positive", "statement": "px/tx: p_sat is positive, continuous and strictly increasing in T; T_sat strictly increasing in p; outside the range both give -9999.", "quantifier": "all real pairs T1<T2", "why_tests_cant": "order statement on a continuum", "anchors": ["src/r4/region4_sat_pT.rs"]}
{"id": "C27", "title": "B23 boundary is strictly increasing and its two forms agree", "statement": "B23 T->p is strictly increasing for T>=623.15 and p->T inverts it up to a proved tolerance on 623.15..863.15 K.", "quantifier": "all real T in the band", "why_tests_cant": "order and error bound on a continuum", "anchors": ["src/common/boundaries.rs: B23_T2p, B23_p2T"]}
{"id": "C28", "title": "Two-phase mixing is linear in quality", "statement": "px and tx return l + x*(v-l) between saturated-liquid and saturated-vapour values for v,h,s,u,... ; x=0 and x=1 give exactly the saturated values; intermediate values lie between them.", "quantifier": "all accepted p (or t), all x in [0,1], every mixed property", "why_tests_cant": "statement over all x and p", "anchors": ["src/r4/region4_pTx.rs: px_reg4, Tx_reg4"]}
{"id": "C29", "title": "Quality round trip", "statement": "ph(p, px(p,x,OH), OX) computed in region 4 gives x back (exact arithmetic), likewise ps and pv with OS and OV.", "quantifier": "all accepted p, all x in [0,1]", "why_tests_cant": "round trip over a continuum", "anchors": ["src/r4/region4_pTx.rs", "src/r4/region4_pair_ext.rs"]}
{"id": "C30", "title": "Two-phase density is consistent with two-phase volume", "statement": "px(p,x,OD)*px(p,x,OV) = 1 for every p and x.", "quantifier": "all accepted p, all x", "why_tests_cant": "relation between outputs over all inputs", "anchors": ["src/r4/region4_pTx.rs"]}
{"id": "C31", "title": "Two-phase properties are available for the whole saturation range", "statement": "For 0<x<1 px/tx return a property number for OD,OV,OH,OS,OU,... at every saturation state including t > 350 C.", "quantifier": "all accepted p/t and x", "why_tests_cant": "whole saturation range", "anchors": ["src/r4/region4_pTx.rs", "src/r3/region3_Td.rs: Td_thermal_reg3"]}
{"id": "C32", "title": "Root finders stop", "statement": "Every secant search stops after at most 100 iterations whatever the function (even if it returns NaN), and its result satisfies its stopping condition.", "quantifier": "all functions, starting points and tolerances", "why_tests_cant": "all possible callbacks and histories", "anchors": ["src/algo/root.rs: rtsec1, rtsec2"]}
{"id": "C33", "title": "Iterative inversions stay inside the region limits", "statement": "Temperatures/pressures returned by the iterative inversions (pv, tv, th, ts, ph, ps, hs where clamped) lie inside the limits of the region for which they are computed.", "quantifier": "all real inputs", "why_tests_cant": "limit must hold for every input", "anchors": ["src/r1/region1_pair_ext.rs", "src/r2/region2_pair_ext.rs", "src/r5/region5_pair_ext.rs", "src/r5/region5_ph_ps_hs.rs"]}
{"id": "C34", "title": "hx and sx stay on the saturation curve", "statement": "For accepted inputs the temperature used by hx and sx lies in [273.15, 647.096] K; the bisection keeps a shrinking bracket and ends after a bounded number of steps.", "quantifier": "all h, s, x", "why_tests_cant": "invariant of a loop over all inputs", "anchors": ["src/r4/region4.rs: bisection_reg4, hx_reg4, sx_reg4"]}
{"id": "C35", "title": "Every call returns", "statement": "pt, ph, ps, pv, ts, px, tx, hx, sx return for all inputs; the unbounded while loops reachable from tv, th and hs terminate for all inputs.", "quantifier": "all inputs; unbounded loops", "why_tests_cant": "termination is not testable", "anchors": ["src/r2/region2_pair_ext.rs: Tv2p_reg2, Th2p_reg2", "src/r5/region5_pair_ext.rs: Tv2p_reg5", "src/common/region.rs: th_sub_region", "src/r4/region4_T_hs.rs: hs2T_reg4"]}
{"id": "C36", "title": "Region 3 subregion selection is total and follows the published table", "statement": "For every (p,T) the (p,T)->v backward equation picks exactly one subregion letter a..z, one that the volume function knows, and the one prescribed by the published pressure bands.", "quantifier": "all real (p,T)", "why_tests_cant": "decision table over the plane", "anchors": ["src/r3/region3_v_pT.rs: sub_region3_pT", "src/r3/region3_v_subregion_pT.rs"]}
{"id": "C37", "title": "tv/th/ts cover the documented temperature range", "statement": "States with 590 C < t <= 800 C given by (t,v), (t,h), (t,s) are assigned a region when (p,t) assigns one to them.", "quantifier": "all t in the band, all second inputs", "why_tests_cant": "gap in a map over the plane", "anchors": ["src/common/region.rs: tv_sub_region, th_sub_region, ts_sub_region"]}
{"id": "C38", "title": "pt on the saturation line", "statement": "pt returns a property value (or an error code), never an unrelated number, for states on the saturation line.", "quantifier": "all states within the saturation tolerance, all o_id", "why_tests_cant": "measure-zero set that tests miss", "anchors": ["src/r4/region4.rs: pT_reg4"]}
{"id": "C39", "title": "Range guards of px and tx behave alike", "statement": "For out-of-range input px, tx, hx, sx return -9999 for every o_id.", "quantifier": "all out-of-range inputs, all o_id", "why_tests_cant": "all out-of-range inputs", "anchors": ["src/rust_if97.rs: px, tx, hx, sx"]}
{"id": "C40", "title": "Domain boundaries are inclusive", "statement": "A state exactly on the documented minimum pressure or on the outer temperature/pressure limits is accepted by pt.", "quantifier": "all t on the boundary isobar/isotherm", "why_tests_cant": "boundary curves have measure zero", "anchors": ["src/common/region.rs: pT_sub_region"]}
{"id": "C41", "title": "Liquid and vapour are ordered", "statement": "On the saturation curve up to 623.15 K saturated-liquid enthalpy, entropy and volume are below the saturated-vapour values, so qualities are well defined.", "quantifier": "all T in the range", "why_tests_cant": "inequality between large polynomials on a continuum", "anchors": ["src/r4/region4_pTx.rs", "src/r1/region1_pT.rs", "src/r2/region2_pT.rs"]}
{"id": "C42", "title": "Stability of the returned states", "statement": "On its region every basic equation gives v>0, cp>0 and kappa_T>0 (so speed of sound is real and (p,h) inversion is unique).", "quantifier": "all states of the region", "why_tests_cant": "inequality on a two-dimensional continuum", "anchors": ["src/r1/region1_pT.rs", "src/r2/region2_pT.rs", "src/r5/region5_pT.rs"]}
{"id": "C43", "title": "Surface tension", "statement": "Surface tension is non-negative and strictly decreasing up to the critical point, where it is zero; outside its range an error code is returned.", "quantifier": "all T", "why_tests_cant": "order statement on a continuum", "anchors": ["src/common/transport_further.rs: surface_tension"]}
{"id": "C44", "title": "Viscosity and conductivity are positive", "statement": "Dynamic viscosity and thermal conductivity are positive for every temperature of the accepted domain and every density.", "quantifier": "all T >= 273.15 K, all real densities", "why_tests_cant": "sign on a continuum", "anchors": ["src/common/transport_further.rs: viscosity"]}
{"id": "C45", "title": "Documented units of temperature", "statement": "Every temperature returned for OT is in degrees Celsius: OT + 273.15 is the Kelvin temperature used internally, in every region and pair function.", "quantifier": "all states", "why_tests_cant": "all paths", "anchors": ["src/r1/region1_pair_ext.rs", "src/r4/region4_pTx.rs: T2sat_water"]}
{"id": "C46", "title": "All outputs of a call describe one state", "statement": "For every pair function, every single-phase region and all inputs, there is one state - a (p,t) for regions 1, 2, 5, a (t,v) for region 3 - such that every requested property equals what pt (tv) returns for that state, except outputs that hand back an input.", "quantifier": "all eight functions, all inputs, all output ids", "why_tests_cant": "The same state must be used for all 36 outputs at every input; tests check single outputs at sample points.", "anchors": ["src/r1/region1.rs", "src/r2/region2.rs", "src/r3/region3.rs", "src/r5/region5.rs", "src/rust_if97.rs"]}
{"id": "C47", "title": "The input pairs agree on the region", "statement": "For a single-phase state (p,t) of region 1, 2 or 5, the region reported by ph, ps, pv, tv and ts for the enthalpy, entropy or volume that pt returns at that state is the region that pt itself reports.", "quantifier": "all p, t in the validity range; the pairs (p,h), (p,s), (p,v), (t,v), (t,s)", "why_tests_cant": "The claim compares independent detection procedures on a continuum of states; it fails only in thin or unusual places (the two forms of the B23 boundary, water near its density maximum), which samples miss.", "anchors": ["src/common/region.rs: pT_sub_region, ph_sub_region, ps_sub_region, pv_sub_region, tv_sub_region, ts_sub_region"]}
{"id": "C48", "title": "Quality round trip by temperature", "statement": "For a saturation temperature t in 0..350 C and quality x in [0,1], handing the volume, entropy or enthalpy that tx(t, x) reports to tv, ts or th at the same t returns region 4 and the quality x.", "quantifier": "all temperatures 0..350 C, all qualities in [0,1], volume, entropy and enthalpy, with and without an explicit region", "why_tests_cant": "Detection compares the mixture with values on three curves; the claim needs the saturated phases and the limiting isobars to be ordered at every temperature.", "anchors": ["/repo/src/common/region.rs: tv_sub_region, th_sub_region, ts_sub_region", "/repo/src/r4/region4_pair_ext.rs: Tv2x_reg4, Th2x_reg4, Ts2x_reg4", "/repo/src/r4/region4.rs: tx_reg4"]}
{"id": "C49", "title": "Throttling", "statement": "The Joule-Thomson coefficient pt reports is positive for every state of regions 2 and 5 and negative for water up to 200 C; of two states of region 2 (or 5) with equal enthalpy the one at lower pressure is colder, and of two states of water (the second up to 200 C) it is warmer.", "quantifier": "all states (p,t) of regions 2 and 5, all states of region 1 up to 200 C, all pairs of states of equal enthalpy", "why_tests_cant": "A sign condition on a mixed derivative of 30-to-50-term polynomials over a continuum of states.", "anchors": ["/repo/src/r2/region2_pT_ext.rs: pT2joule_reg2", "/repo/src/r1/region1_pT_ext.rs", "/repo/src/r5/region5_pT_ext.rs"]}
{"id": "C50", "title": "Liquid water: ph, ps and hs invert pt", "statement": "For every state (p,t) of region 1: ph(p, pt(p,t,OH), OT) and ps(p, pt(p,t,OS), OT) differ from t by at most 0.025 K, with the region given or detected; hs of that enthalpy and entropy returns a pressure within 0.015 MPa of p and a temperature within 0.025 K of t.", "quantifier": "every real pressure and temperature of region 1", "why_tests_cant": "The backward equations are separate 20-term fits; a test compares them with the basic equation at a few table points, the claim is a uniform error bound over a continuum.", "anchors": ["/repo/src/r1/region1_T_phps.rs: ph2T_reg1, ps2T_reg1", "/repo/src/r1/region1_p_hs.rs: hs2p_reg1", "/repo/src/r1/region1.rs: ph_reg1, ps_reg1, hs_reg1"]}
{"id": "C51", "title": "Steam: ph inverts pt", "statement": "For every state (p,t) of region 2: ph(p, pt(p,t,OH), OT) differs from t by at most 0.025 K, and by at most 0.01 K when p <= 4 MPa or the enthalpy is at least h2bc(p), the boundary of subregions 2b and 2c; with the region given, or detected by ph itself outside the 1e-9 K strip between the two published forms of the B23 boundary.", "quantifier": "every real pressure and temperature of region 2", "why_tests_cant": "Three separate fits with 34, 38 and 23 terms and two switches; a test compares them with the basic equation at a few table points, the claim is a uniform error bound over a continuum and across the switches.", "anchors": ["/repo/src/r2/region2_T_ph.rs: ph2T_reg2a, ph2T_reg2b, ph2T_reg2c, ph2T_reg2, enthalpy_2bc", "/repo/src/r2/region2.rs: ph_reg2"]}
{"id": "C52", "title": "Heat capacities ordered, speed of sound real", "statement": "For every state (p,t) of regions 1, 2 and 5, with the region given or detected: pt returns OCV > 0 and OCV <= OCP (strictly less in regions 2 and 5), and OW > 0, so no square root of a negative number is taken; in regions 1 and 2 OW^2*OCV*OKT = 1e6*OV*OCP on the whole region.", "quantifier": "every real pressure and temperature of regions 1, 2, 5", "why_tests_cant": "The sign of a determinant of second derivatives of a 34- to 43-term polynomial on a two-dimensional continuum; a wrong coefficient can make it negative in a corner no test visits, where the call returns NaN.", "anchors": ["src/r1/region1_pT.rs: pT2cv_reg1, pT2w_reg1", "src/r2/region2_pT.rs: pT2cv_reg2, pT2w_reg2", "src/r5/region5_pT.rs: pT2cv_reg5, pT2w_reg5"]}
{"id": "C53", "title": "Steam: T(p,s) inverts the basic equation", "statement": "For every state (p,t) of region 2: let s = pt(p,t,OS). Then ps(p,s,OT), with the region given or detected, is within 25 mK of t, and within 10 mK of t if p <= 4 MPa or s >= 5.85 kJ/(kg K).", "quantifier": "every real pressure and temperature of region 2 (with the region detected: away from the 1e-6 saturation band and from the sliver between the two published forms of the boundary B23)", "why_tests_cant": "The three polynomials with negative and fractional powers are independent of the basic equation with its logarithm; a wrong coefficient can move the result by kelvins in a corner of the region no test visits.", "anchors": ["src/r2/region2_T_ps.rs: ps2T_reg2, ps2T_reg2a, ps2T_reg2b, ps2T_reg2c", "src/r2/region2_pT.rs: pT2s_reg2", "src/common/region.rs: ps_sub_region"]}
{"id": "C54", "title": "Region 3: T(p,h), v(p,h), T(p,s), v(p,s) invert the basic equation", "statement": "For every state (t,v) of region 3 with v >= 0.00125 m3/kg: let p, h, s be what tv(t,v,..,region 3) returns for OP, OH, OS. If (t,p) lies in region 3 (350 degC <= t <= 590 degC, from the boundary B23 up to 100 MPa) and, below 373.946 degC, the density belongs to the liquid above and to the vapour below the saturation pressure, then ph(p,h) and ps(p,s), region 3, return OT within 25 mK of t and OV within 0.01 % of v.", "quantifier": "every real temperature and specific volume of region 3", "why_tests_cant": "Eight fitted polynomials with up to 46 terms and exponents from -12 to 36, in two subregions, are independent of the Helmholtz equation they invert; a wrong digit in one coefficient or a wrong side of the subregion boundary shows only in part of a two-dimensional continuum, while the published tables check four points each.", "anchors": ["src/r3/region3_Tv_phps.rs: ph2T_reg3, ph2v_reg3, ps2T_reg3, ps2v_reg3", "src/r3/region3_Td.rs: Td2p_reg3, Td2h_reg3, Td2s_reg3", "src/r3/region3.rs: ph_reg3, ps_reg3, tv_reg3"]}
{"id": "C55", "title": "Region 3: the states are stable", "statement": "For every state (t,v) of region 3 with v >= 0.00125 m3/kg, outside the window 372.85 degC < t < 373.95 degC, 240 < 1/v < 400 kg/m3 around the critical point: tv(t,v,..,region 3) returns OKT > 0, OCV > 0, OCP >= OCV and OW > 0, and up to 100 MPa ODPDT > 0. From 373.95 degC on the pressure falls and the entropy grows with v at constant t, and pressure, enthalpy and internal energy grow with t at constant v, so (p,t) fixes v and (p,v) fixes t.", "quantifier": "every real temperature and specific volume of region 3 outside the critical window (below it: liquid above and vapour below the saturation pressure, on the proper side of a parabola inside the two-phase dome)", "why_tests_cant": "A Helmholtz equation fitted near the critical point can have loops where the compressibility is negative; whether it has any is an inequality between 40-term polynomials on a two-dimensional continuum.", "anchors": ["src/r3/region3_Td.rs: Td2kt_reg3, Td2cv_reg3, Td2cp_reg3, Td2w_reg3, Td2dpdtcv_reg3, Td2p_reg3, Td2s_reg3, Td2h_reg3, Td2u_reg3", "src/r3/region3.rs: tv_reg3"]}
{"id": "C56", "title": "Region 3: the states are recognised by (p,h) and (p,s) without naming the region", "statement": "For every state (t,v) of region 3 with v >= 0.00125 m3/kg whose pressure is at most 100 MPa: let p, h, s be what tv(t,v,..,region 3) returns for OP, OH, OS. If t is at least 0.05 K above 350 degC and below the boundary temperature B23(p), and, below 22.064 MPa, at least 0.1 K away from the saturation temperature of p (liquid density below it, vapour density above it), then ph(p,h) and ps(p,s), no region given, report region 3 and return OT within 25 mK of t and OV within 0.01 % of v. Within a few mK of B23 the region reported can be 2.", "quantifier": "every real temperature and specific volume of region 3, at the stated distance from its borders", "why_tests_cant": "The region is found by comparing h (or s) with the equations of regions 1 and 2 at the borders and with a fitted polynomial for the saturation pressure; none of them agrees exactly with the Helmholtz equation, so how far the detection is right is an inequality between four fitted equations on a two-dimensional continuum.", "anchors": ["src/common/region.rs: ph_sub_region, ps_sub_region", "src/common/boundaries.rs: B23_p2T", "src/r3/region3_Td.rs: Td2p_reg3, Td2h_reg3, Td2s_reg3", "src/r3/region3_Tv_phps.rs: ph2T_reg3, ph2v_reg3, ps2T_reg3, ps2v_reg3"]}
{"id": "C57", "title": "Region 3: isobars are monotone, so (p,h) and (p,s) determine the state", "statement": "For any two states (t,v), (t',v') with 373.95 degC <= t < t' <= 590 degC and v, v' >= 0.00125 m3/kg for which tv(..,region 3) returns the same pressure p <= 100 MPa: v < v', and tv returns a larger OH and a larger OS at (t',v'). Hence two such states with the same (p,h) or the same (p,s) are equal.", "quantifier": "every pair of real states of region 3 above 373.95 degC up to 100 MPa", "why_tests_cant": "Uniqueness ranges over all pairs of states of a two-dimensional continuum; a Helmholtz equation with a loop anywhere would give two temperatures for one enthalpy, and no finite set of points excludes it.", "anchors": ["src/r3/region3_Td.rs: Td2p_reg3, Td2h_reg3, Td2s_reg3", "src/r3/region3.rs: tv_reg3"]}
{"id": "C58", "title": "Isentropic compression raises the enthalpy; (h,s) determines the state", "statement": "For any two states of one of the regions 1, 2, 5 (pt) or of region 3 above 373.95 degC (tv, v >= 0.00125 m3/kg, up to 100 MPa) with p < p' and OS <= OS': OH' - OH is at least 1000*v*(p'-p) > 0, v being the volume at p' and the lower temperature (in region 2 provided that this state is steam too). For steam with OS' <= OS, OH' - OH is at most 1000*v*(p'-p) with v at p and t'. Hence two states of equal enthalpy have the larger entropy at the lower pressure (throttling), and two states of region 1, of region 5 or of region 3 above 373.95 degC with the same (h,s) are equal.", "quantifier": "every pair of real states of the region", "why_tests_cant": "It relates all pairs of states of a two-dimensional continuum through three different output quantities; a wrong coefficient in one derivative can break it in a small part only.", "anchors": ["src/r1/region1_pT.rs: pT2h_reg1, pT2s_reg1, pT2v_reg1", "src/r2/region2_pT.rs: pT2h_reg2, pT2s_reg2, pT2v_reg2", "src/r5/region5_pT.rs: pT2h_reg5, pT2s_reg5, pT2v_reg5", "src/r3/region3_Td.rs: Td2p_reg3, Td2h_reg3, Td2s_reg3", "src/lib.rs: pt, tv"]}
{"id": "C59", "title": "Heat along isobars and work along isotherms obey the second law", "statement": "In exact arithmetic, for two states of one of the regions 1, 2, 5 at the same pressure with t < t': OS increases and T*(s'-s) < h'-h < T'*(s'-s), T and T' being the two temperatures in K. For two states at the same temperature with p < p': 0 < v' and 1000*v'*(p'-p) < g'-g < 1000*v*(p'-p). In region 3 from 373.95 to 590 degC and v >= 0.00125 m3/kg (tv): at the same volume with t < t', s < s' and T*(s'-s) < u'-u < T'*(s'-s); at the same temperature with v < v', 1000*p'*(v'-v) < f-f' < 1000*p*(v'-v).", "quantifier": "every pair of real states of the region on a common isobar, isotherm or isochore", "why_tests_cant": "The bounds relate finite differences of two different outputs over every interval of a continuum; an inconsistent coefficient shows only on some intervals.", "anchors": ["src/r1/region1_pT.rs: pT2h_reg1, pT2s_reg1, pT2v_reg1", "src/r1/region1_pT_ext.rs: pT2g_reg1", "src/r2/region2_pT.rs: pT2h_reg2, pT2s_reg2, pT2v_reg2", "src/r2/region2_pT_ext.rs: pT2g_reg2", "src/r5/region5_pT.rs: pT2h_reg5, pT2s_reg5, pT2v_reg5", "src/r5/region5_pT_ext.rs: pT2g_reg5", "src/r3/region3_Td.rs: Td2p_reg3, Td2u_reg3, Td2s_reg3", "src/r3/region3_Td_ext.rs: Td2f_reg3", "src/lib.rs: pt, tv"]}
{"id": "C60", "title": "Isobars are monotone through boiling", "statement": "At every pressure from the saturation pressure of 0 degC to that of 350 degC, follow the isobar: liquid by pt(p,t), mixtures by px(p,x) from x = 0 to x = 1, steam by pt(p,t) up to 800 degC, no region named. OH and OS grow strictly along the whole path, also from liquid to mixture and from mixture to steam. Hence a pressure and an enthalpy, or a pressure and an entropy, belong to at most one point of the path.", "quantifier": "every pressure from 0.000611212677445 to 16.5291642526045 MPa and every pair of points of the isobar", "why_tests_cant": "The comparison is between results of different equations (region 1, mixing rule, region 2) for all pairs of points of a continuum of isobars.", "anchors": ["src/lib.rs: pt, px", "src/common/region.rs: pT_sub_region", "src/r1/region1_pT.rs: pT2h_reg1, pT2s_reg1", "src/r2/region2_pT.rs: pT2h_reg2, pT2s_reg2", "src/r4/region4_pTx.rs: px_reg4, p2sat_water, p2sat_steam"]}
{"id": "C61", "title": "Isotherms are monotone through evaporation", "statement": "At every temperature from 0 to 350 degC, follow the isotherm from 100 MPa down: liquid by pt(p,t), mixtures by tx(t,x) from x = 0 to x = 1, steam by pt(p,t), no region named. OV grows strictly along the whole path, and from 5 degC on so does OS, also from liquid to mixture and from mixture to steam. Hence a temperature and a volume, or from 5 degC on a temperature and an entropy, belong to at most one point of the path.", "quantifier": "every temperature from 0 to 350 degC and every pair of points of the isotherm above the lowest admitted pressure", "why_tests_cant": "The comparison is between results of different equations (region 1, mixing rule, region 2) for all pairs of points of a continuum of isotherms.", "anchors": ["src/lib.rs: pt, tx", "src/common/region.rs: pT_sub_region", "src/r1/region1_pT.rs: pT2v_reg1, pT2s_reg1", "src/r2/region2_pT.rs: pT2v_reg2, pT2s_reg2", "src/r4/region4_pTx.rs: Tx_reg4, T2sat_water, T2sat_steam"]}
{"id": "C62", "title": "The returned exergy obeys the second law", "statement": "In exact arithmetic, regions 1, 2, 5: heating at constant pressure from t >= 0.01 degC to t' > t raises OE by more than (t-0.01)*(s'-s) and by less than (t'-0.01)*(s'-s), and by less than the heat OH'-OH. Two states of equal enthalpy with p < p': OE at p is lower, by exactly 273.16 times the entropy produced. Two states of equal entropy with p < p': OE grows by exactly the enthalpy difference, which is more than 1000*v*(p'-p) > 0, v at p' and the lower temperature. In region 2 the last two suppose that (p', t) is steam too.", "quantifier": "every pair of real states of the region on a common isobar, isenthalpe or isentrope", "why_tests_cant": "The claims compare OE, OH, OS and OV of all pairs of states of a continuum.", "anchors": ["src/r1/region1_pT_ext.rs: pT2e_reg1", "src/r2/region2_pT_ext.rs: pT2e_reg2", "src/r5/region5_pT_ext.rs: pT2e_reg5", "src/lib.rs: pt"]}
