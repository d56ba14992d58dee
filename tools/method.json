{
 "C01": "Method: generic in the number type (covers IEEE f64); case analysis on the dispatcher.",
 "C02": "Method: generic; case analysis on `pair_properties` with an independent table of region functions.",
 "C03": "Method: generic; each binding body modelled separately and proved equal to the Rust entry point.",
 "C04": "Method: generic; exhaustive case analysis on the `match o_id` chains.",
 "C05": "Method: over the reals; independent domain predicate, proved iff.",
 "C06": "Method: generic; path analysis of the guards.",
 "C07": "Method: generic; path analysis of `pair_properties`.",
 "C08": "Method: for any number type satisfying stated NaN laws (an instance is exhibited).",
 "C09": "Method: generic: loop-invariant proof that consecutive steps cover the table, plus checked-index version.",
 "C10": "Method: over the reals, by induction on the table.",
 "C11": "Method: over the reals, `HasDerivAt` by induction on the table.",
 "C12": "Method: over the reals, `HasDerivAt` from C11 + chain rule.",
 "C13": "Method: as C12 for region 3.",
 "C14": "Method: over the reals, algebra.",
 "C15": "Method: `HasDerivAt`.",
 "C16": "Method: `HasDerivAt`.",
 "C17": "Method: `HasDerivAt`.",
 "C18": "Method: algebra; region 5 violates it - negation with witness.",
 "C19": "Method: algebra with Real.sqrt.",
 "C20": "Method: algebra; region 3 violates it - negation.",
 "C21": "Method: algebra + derivative; unit factor 0.001 deviates - exact statement.",
 "C22": "Method: generic (bitwise) or reals.",
 "C23": "Method: generic; region 3 violates it - negation.",
 "C24": "Method: generic; pt path violates it - negation.",
 "C25": "Method: over the reals: quadratic implicit equation solved both ways.",
 "C26": "Method: from C25 by continuity and injectivity.",
 "C27": "Method: reals, algebra and bounds.",
 "C28": "Method: reals (and generic where bitwise).",
 "C29": "Method: reals, lever rule.",
 "C30": "Method: violated: negation and exact value.",
 "C31": "Method: violated for OD above 350 C: exact value; positive part for the others.",
 "C32": "Method: generic: fuel recursion equals the loop; invariants.",
 "C33": "Method: reals: clamp lemmas.",
 "C34": "Method: reals: loop invariant by induction.",
 "C35": "Method: `partial_fixpoint` model (none = divergence); termination measures over the reals. `C35_hs_violated`: an invariant interval of pressures for the uncounted loop, with the entropy of one pass enclosed along the saturation line by Taylor models checked in the kernel (Lemmas/Tm/Hang*.lean).",
 "C36": "Method: generic totality; negation for the overwritten letters.",
 "C37": "Method: violated: generic proof that the band yields -9999.",
 "C38": "Method: violated: generic proof that 4.0 is returned.",
 "C39": "Method: px/hx/sx proved, tx violated for OT/OX.",
 "C40": "Method: reals; violated at p = P_MIN.",
 "C41": "Method: reals; certified interval arithmetic evaluated in the kernel.",
 "C42": "Method: reals; certified interval arithmetic.",
 "C43": "Method: reals; monotonicity of rpow.",
 "C44": "Method: reals; sign of exp and of a bounded polynomial.",
 "C45": "Method: generic; path analysis.",
 "C46": "Method: any number type; case analysis per region function.",
 "C47": "Method: exact arithmetic; monotonicity along isobars and isotherms from certified enclosures, then path analysis of each detector.",
 "C48": "Method: exact arithmetic; order of the saturated phases (C41) and path analysis of the detectors; point values by certified enclosure for the counterexample.",
 "C49": "Method: exact arithmetic; sign of the mixed derivative by certified enclosure, then monotonicity of enthalpy in pressure.",
 "C50": "Method: exact arithmetic; T(p, h(p, T)) - T and its analogues are enclosed on subdivisions of the region by verified Taylor models (polynomial arithmetic on packed naturals, evaluated in the kernel), and the subdivisions are proved to cover the region.",
 "C51": "Method: exact arithmetic; T(p, h(p, T)) - T is enclosed by verified Taylor models on subdivisions in the coordinates β = p^(1/4) and the position of 540/T between polynomials that follow the isotherm 1073.15 K, the h2bc curve and the boundary of the region; the polynomials are proved to lie outside the region, so the subdivisions cover it.",
 "C52": "Method: exact arithmetic; the determinant of the second derivatives of the dimensionless Gibbs function is shown positive by verified Taylor models on the strips of C50 (region 1), the fans of C51 (region 2) and one box (region 5); the claims about OCV, OCP and OW follow by algebra and C42.",
 "C53": "Method: exact arithmetic; the region is subdivided in coordinates that follow its boundary and the isentrope 5.85, and T(p, s(p, T)) - T is enclosed by verified Taylor models evaluated in the kernel, with a verified model of the logarithm; p and τ - 0.5 are measured in units chosen per fan, and the tables in these units are checked against those of the code.",
 "C54": "Method: exact arithmetic; in the coordinates density/322 and 647.096/T the region is subdivided (about 4000 boxes); on each box verified Taylor models enclose p, h (or s, with its logarithm), the backward temperature and volume of the subregion that holds the box, or of both subregions when the box meets their boundary, or show that the box lies outside the region. Constants and tables in the kernel-evaluated code are proved equal to those of the model. Below the critical point the boxes left out are those above 22.064 MPa (covered already), on the wrong side of a parabola inside the two-phase dome, or beyond the saturation line; the saturation pressure is bounded there by fourth powers of two quadratics (Bernstein coefficients, `Lemmas/SatBound.lean`). The region is given by the caller.",
 "C55": "Method: exact arithmetic; the three sign conditions 2 phi_d + d phi_dd > 0, phi_tt < 0 and phi_d - tau phi_dt > 0 are each one polynomial in density/322 and 647.096/T, and verified Taylor models decide them on a subdivision (about 160 boxes); the derivatives that link them to the returned values are those of C13-C22. `C55_critical` shows that the window cannot be dropped.",
 "C56": "Method: exact arithmetic; in six pressure bands the enthalpies and entropies on the two borders are bounded by fitted polynomials in p (one-dimensional Taylor models), and the region 3 states are shown to lie strictly between them and above p34(h), p34(s) (two-dimensional Taylor models, 0.05 K and 0.1 K from the borders by the hypotheses); the inversion itself is C54. `C56_border_ph` shows that the distance from B23 cannot be dropped.",
 "C57": "Method: exact arithmetic; from the signs of C55 the pressure is monotone on isotherms and isochores, which orders the volumes and entropies; the Gibbs function is then shown to be concave along the isobar (its supporting line follows from the convexity of the Helmholtz function in v and its concavity in T), which orders the enthalpies. No further subdivision is needed.",
 "C58": "Method: exact arithmetic; h = g + T s with g concave in T and increasing in p (C12, and the signs of C42, C55), so h(p',T') is the largest value of g(p',T) + T s' along the isobar; the mean value theorem gives the two bounds by v dp. Region 3 works with the Helmholtz function; that the densities up to 800 kg/m3 reach 100 MPa is evaluated at 647.1 K and carried upwards by monotonicity. Not covered: region 2 when the compressed state at the lower temperature is not steam, and states of two different regions.",
 "C59": "Method: exact arithmetic; the mean value theorem on g along the isobar (slope -s) and isotherm (slope 1000 v), and on f along the isochore (slope -s) and isotherm (slope -1000 p) of region 3, with the strict monotonicity of s, v and p from C42, C55 and C57. Not covered: paths that cross a region boundary, and region 3 below 373.95 degC.",
 "C60": "Method: exact arithmetic; detection by C05, the mixing rule by C28, strict monotonicity inside each phase from the signs of C42, and the separating constants of C41 across the jump; the strict side of the saturation line comes from the region map. Not covered: isobars that pass through region 3.",
 "C61": "Method: exact arithmetic; detection by C05, the mixing rule by C28, strict monotonicity of volume and entropy in pressure inside each phase from the signs of C42 and C49, and the separating constants of C41 across the jump. The entropy claim starts at 5 degC because the entropy of colder water is not monotone in pressure. Not covered: isotherms that pass through region 3, and p = 0.000611212677444 MPa exactly (see C05).",
 "C62": "Method: exact arithmetic; OE = OH - 273.16 OS (C20) combined with the finite-difference bounds of C58 and C59. Not covered: region 3, whose exergy formula departs (C20_region3_violated), and pairs in different regions."
}