{"id": "C01", "title": "check() verdict is exactly the documented decision", "statement": "Composition::check returns Err(Empty) exactly when the magnitude of the component sum is below 1e-10, otherwise Err(BadSum) exactly when the sum differs from 1 by more than 0.01, otherwise Ok; the verdict depends on nothing but the sum.", "quantifier": "every composition (all 21 components arbitrary, any arithmetic for the decision shape, all reals for the numeric reading)", "why_tests_cant": "The input space is 21 independent floats; the boundaries 1e-10 and 0.01 can only be sampled by tests.", "anchors": ["src/composition.rs: Composition::check, Composition::sum"]}
{"id": "C02", "title": "An accepted composition sums to one within 1 %", "statement": "In exact arithmetic check() accepts a composition exactly when its 21 fractions sum to 1 within 0.01. In IEEE arithmetic the same holds up to a relative error of 1e-14 for non-negative finite fractions; an infinite sum is never accepted. Outside that range the check is unsound: every composition containing a NaN is accepted, and there are finite fractions of both signs that sum to 6 and are accepted because of cancellation.", "quantifier": "every composition over the reals; every f64 composition (soundness for non-negative finite fractions; the NaN finding for every composition with a NaN; the cancellation finding by a witness)", "why_tests_cant": "Acceptance must be sound for all inputs including NaN; unit tests sample three compositions.", "anchors": ["src/composition.rs: Composition::check", "src/detail.rs: Detail::set_composition", "src/gerg2008.rs: Gerg2008::set_composition"]}
{"id": "C03", "title": "normalize() makes fractions that sum to one and keeps proportions", "statement": "If the component sum is positive, normalize() returns Ok, afterwards every component is the old component divided by the old sum, the components sum to exactly 1 (exact arithmetic) and the ratio of any two components is unchanged.", "quantifier": "every composition with positive sum", "why_tests_cant": "A law over all real compositions; tests check two examples.", "anchors": ["src/composition.rs: Composition::normalize"]}
{"id": "C04", "title": "normalize() fails atomically", "statement": "normalize() returns Err(Empty) exactly when the sum is not greater than zero, and in that case no component is modified; it never returns BadSum.", "quantifier": "every composition, any arithmetic (including NaN sums)", "why_tests_cant": "Atomicity must hold on every failing input, including NaN and negative sums.", "anchors": ["src/composition.rs: Composition::normalize"]}
{"id": "C05", "title": "normalize() is idempotent and its output is accepted", "statement": "After a successful normalize(), check() returns Ok, set_composition on both equations of state accepts the composition, and a second normalize() succeeds and changes nothing.", "quantifier": "every composition with positive sum", "why_tests_cant": "Composition of two operations for all inputs.", "anchors": ["src/composition.rs: Composition::normalize, Composition::check", "src/detail.rs: Detail::set_composition", "src/gerg2008.rs: Gerg2008::set_composition"]}
{"id": "C06", "title": "DETAIL set_composition is atomic and puts every component in its slot", "statement": "Detail::set_composition either rejects the composition with check()'s error and leaves the whole object untouched, or returns Ok, stores each named component at its own index of x and changes no other field.", "quantifier": "every object state and every composition, any arithmetic", "why_tests_cant": "21 slots times all prior states; a swapped pair of slots or a partial write on the error path is invisible to example tests with tolerance.", "anchors": ["src/detail.rs: Detail::set_composition", "src/composition.rs: Composition::check"]}
{"id": "C07", "title": "GERG set_composition is atomic and puts every component in its slot", "statement": "Gerg2008::set_composition either rejects with check()'s error leaving the object untouched, or returns Ok, clears slot 0, stores each named component at its own 1-based slot and changes no other field.", "quantifier": "every object state and every composition, any arithmetic", "why_tests_cant": "Same as C06 with the 1-based layout.", "anchors": ["src/gerg2008.rs: Gerg2008::set_composition"]}
{"id": "C08", "title": "Molar mass is the mole-fraction weighted mean", "statement": "molar_mass() sets mm to the sum of fraction times pure-component molar mass, for each named component, changes nothing else, agrees between the stored field and (DETAIL) the returned value, and for non-negative fractions summing to one lies between the lightest and heaviest component mass; the two models agree within 0.005 g/mol.", "quantifier": "every object state and composition", "why_tests_cant": "A bound over the whole composition simplex.", "anchors": ["src/detail.rs: Detail::molar_mass, MMI", "src/gerg2008.rs: Gerg2008::molar_mass, MMI_GERG"]}
{"id": "C09", "title": "DETAIL never panics", "statement": "No sequence of constructor, field writes, set_composition, molar_mass, pressure, density and properties calls on a Detail panics (no out-of-bounds index), whatever values are supplied, NaN and infinities included.", "quantifier": "every finite history of public API calls, every argument value, any arithmetic", "why_tests_cant": "Panic freedom quantifies over all histories and all float values.", "anchors": ["src/detail.rs: Detail::alphar, BN, KN, Detail::x_terms, Detail::alpha0_detail"]}
{"id": "C10", "title": "GERG never panics", "statement": "No sequence of public API calls on a Gerg2008 panics, whatever values are supplied; in particular every exponent read from the parameter tables is a valid index of the power tables.", "quantifier": "every finite history of public API calls, every argument value, any arithmetic", "why_tests_cant": "The indices are data (coik, doik, dijk, MNUMB...), so one bad table entry for one rare component pair would panic only for compositions that contain it.", "anchors": ["src/gerg2008.rs: Gerg2008::setup, Gerg2008::alphar, Gerg2008::tterms, KPOL, KEXP, KPOLIJ, KEXPIJ, MNUMB"]}
{"id": "C11", "title": "DETAIL pressure() only computes", "statement": "Detail::pressure() leaves t, p, d, x and every public result field except z unchanged, and returns d*R*t*z for the z it stores.", "quantifier": "every object state, any arithmetic", "why_tests_cant": "A frame condition over all states.", "anchors": ["src/detail.rs: Detail::pressure"]}
{"id": "C12", "title": "DETAIL density() only touches d and z", "statement": "Detail::density() leaves t, p, x and every public field other than d and z unchanged, whether it succeeds or fails.", "quantifier": "every object state, any arithmetic", "why_tests_cant": "A frame condition over all states and both outcomes.", "anchors": ["src/detail.rs: Detail::density"]}
{"id": "C13", "title": "DETAIL properties() keeps the state point", "statement": "Detail::properties() leaves t, d and x unchanged and overwrites p with the equation-of-state pressure d*R*t*z; d2p_dtd is always reset to zero.", "quantifier": "every object state, any arithmetic", "why_tests_cant": "A frame condition over all states.", "anchors": ["src/detail.rs: Detail::properties"]}
{"id": "C14", "title": "GERG calls keep their inputs", "statement": "Gerg2008::pressure() changes no public field but z; density(iflag<=0) changes none but d and z; density with any iflag keeps t, p, x; properties() keeps t, p, d, x and returns d*R*t*z.", "quantifier": "every object state and flag, any arithmetic", "why_tests_cant": "Frame conditions over all states.", "anchors": ["src/gerg2008.rs: Gerg2008::pressure, Gerg2008::density, Gerg2008::properties"]}
{"id": "C15", "title": "DETAIL density() error contract", "statement": "Detail::density() returns PressureTooLow exactly when |p|<1e-15 and then d is 0; when it returns IterationFail the stored density is the ideal-gas density p/R/t; those are the only errors.", "quantifier": "every object state, any arithmetic", "why_tests_cant": "The error path must restore the ideal gas density after any number of iterations from any start.", "anchors": ["src/detail.rs: Detail::density", "src/lib.rs: DensityError"]}
{"id": "C16", "title": "DETAIL density() success contract", "statement": "When Detail::density() returns Ok there is a last evaluated density e such that the equation of state at (t,e,x) had dP/dD>=1e-15 and P>=1e-15, the last Newton correction in log-volume was below 1e-7 in magnitude, and the returned d is exp of minus the corrected log-volume; over the reals d is positive, bounded by exp(7+1e-7), and the pressure at e matches the requested pressure to 1e-7*e*(dP/dD)/P in log terms.", "quantifier": "every object state for which density() succeeds", "why_tests_cant": "Convergence quality must hold at every state point, not the sampled ones.", "anchors": ["src/detail.rs: Detail::density, Detail::pressure"]}
{"id": "C17", "title": "GERG density() contract without two-phase check", "statement": "Gerg2008::density(iflag<=0): on IterationFail the stored density is p/R/t; PressureTooLow is never returned; on Ok the same convergence contract as C16 holds.", "quantifier": "every object state and every iflag<=0, any arithmetic", "why_tests_cant": "All states, up to 50 iterations with three restarts.", "anchors": ["src/gerg2008.rs: Gerg2008::density"]}
{"id": "C18", "title": "Refuted: GERG density() can succeed when the two-phase check is requested", "statement": "A caller passing iflag>0 relies on Ok being possible for a converged single-phase state. This does not hold: for every state and every iflag>0 the call returns Err(IterationFail), even when the iteration converged and all stability checks pass.", "quantifier": "every object state, every iflag>0, any arithmetic", "why_tests_cant": "Claim about every state: no test can show that no state succeeds.", "anchors": ["src/gerg2008.rs: Gerg2008::density"]}
{"id": "C19", "title": "DETAIL results do not depend on history", "statement": "In every history in which each evaluated (composition, temperature) is either identical to the previously evaluated one or differs by more than 1e-7 in some component (and in temperature), every pressure()/density()/properties() call gives exactly the result a freshly constructed object gives for the same inputs.", "quantifier": "every finite history of public API calls satisfying the side condition, any arithmetic", "why_tests_cant": "Cache coherence over all histories.", "anchors": ["src/detail.rs: Detail::x_terms, Detail::alphar, xold, told"]}
{"id": "C20", "title": "Refuted: DETAIL results do not depend on history when inputs move by small steps", "statement": "Without the side condition of C19 a call's result need not be that of a fresh object. The remembered temperature and composition are overwritten even when the change was too small (at most 1e-7) to trigger recomputation, so from any state a history of small writes and pressure() calls leads to any other temperature and composition, where pressure() still returns D*R*T*Z with the Z of the starting temperature and composition.", "quantifier": "every starting state with T>1e-7 and some fraction above 1e-7 in absolute value, every target temperature (non-zero) and composition, exact real arithmetic", "why_tests_cant": "The failing histories have millions of steps for a visible effect; only an inductive argument covers them.", "anchors": ["src/detail.rs: Detail::x_terms, Detail::alphar"]}
{"id": "C21", "title": "Refuted: a NaN input does not poison later DETAIL results", "statement": "After a NaN temperature or composition was evaluated, setting valid inputs again gives valid results. (Finding: false of the code in IEEE arithmetic. The comparison with the remembered NaN is never 'changed', so on a new object the next valid state is silently evaluated as an ideal gas, Z=1, and stays so while the inputs are kept.)", "quantifier": "every f64 NaN-containing composition accepted by set_composition, every valid follow-up state", "why_tests_cant": "Needs exact IEEE semantics over all follow-up values.", "anchors": ["src/detail.rs: Detail::x_terms, Detail::alphar", "src/composition.rs: Composition::check"]}
{"id": "C22", "title": "GERG results do not depend on history", "statement": "In every history in which each evaluated (composition, temperature) is either identical to the previously evaluated one or detectably different, every GERG pressure()/density()/properties() call gives exactly the result a freshly constructed object gives for the same inputs.", "quantifier": "every finite history of public API calls satisfying the side condition, any arithmetic", "why_tests_cant": "GERG keeps two layers of caches (reducing parameters, temperature powers) that are only partially recomputed.", "anchors": ["src/gerg2008.rs: Gerg2008::reducingparameters, Gerg2008::alphar, Gerg2008::tterms, drold, trold, told, trold2, xold, taup, taupijk"]}
{"id": "C23", "title": "Refuted: GERG results do not depend on history when temperature and composition move by small steps", "statement": "As C20 for GERG: from any starting state a history of small steps leads to any other temperature T and any other composition x with the same components present, where pressure() still uses the reduced density and the inverse reduced temperature of the starting composition and temperature: it returns D R T (1 + delta dalpha_r/ddelta) with alpha_r of x but delta and tau of the start. For mixtures with departure functions this covers changes of composition at constant temperature; the value after a temperature drift of such a mixture is not covered, nor are histories in which a component appears or disappears.", "quantifier": "every starting state with T>1e-7 and some fraction at least 1e-6, every target composition with the same components present, every target temperature (without departure functions) or the same temperature (with them), exact real arithmetic; and one numerical witness that the results differ", "why_tests_cant": "As C20.", "anchors": ["src/gerg2008.rs: Gerg2008::reducingparameters, Gerg2008::alphar"]}
{"id": "C24", "title": "Repeating an evaluation changes nothing", "statement": "Calling pressure() (or properties()) twice in a row gives the same result and leaves the object in the same state as calling it once, for both equations of state; calling density() again on its own result (both calls starting from the default estimate, i.e. with a density field not below -1e-15) returns the same outcome and the same density.", "quantifier": "every object state, any arithmetic in which x-x is never larger than 1e-7", "why_tests_cant": "Idempotence over all states including partially cached ones.", "anchors": ["src/detail.rs: Detail::pressure, Detail::properties, Detail::density", "src/gerg2008.rs: Gerg2008::pressure, Gerg2008::properties"]}
{"id": "C25", "title": "DETAIL density derivatives are derivatives of the returned pressure", "statement": "For positive T and D: dp_dd is the partial derivative of pressure() with respect to density at fixed T and x, and d2p_dd2 is the second partial derivative.", "quantifier": "all compositions, all T>0, all D>0 (above the code's 1e-15 cut-off), exact real arithmetic", "why_tests_cant": "An identity between functions; finite differences at sampled points cannot settle it.", "anchors": ["src/detail.rs: Detail::properties, Detail::alphar, Detail::pressure"]}
{"id": "C26", "title": "DETAIL temperature derivatives are consistent", "statement": "dp_dt is the partial derivative of pressure() with respect to T; s is minus the temperature derivative of the Helmholtz energy; cv is the temperature derivative of the internal energy u at constant density (and T times that of s).", "quantifier": "new objects with any composition with some fraction above 1e-7 in absolute value, all T>1e-7, all D, exact real arithmetic", "why_tests_cant": "As C25.", "anchors": ["src/detail.rs: Detail::properties, Detail::alpha0_detail, Detail::alphar"]}
{"id": "C27", "title": "DETAIL energy identities", "statement": "h = u + p/d and g = h - T*s at every state point, with p/d replaced by R*T when d is at most 1e-15. The Helmholtz energy u - T*s generates the pressure: its derivative with respect to density is p/d^2, and that of s is -dp_dt/d^2.", "quantifier": "every object state, exact real arithmetic; the Helmholtz part for T non-zero, d>1e-15 and positive fractions summing to 1", "why_tests_cant": "Identities over all states.", "anchors": ["src/detail.rs: Detail::properties"]}
{"id": "C28", "title": "DETAIL heat capacity, speed of sound, Joule-Thomson and isentropic exponent relations", "statement": "cp - cv = T*(dp_dt/d)^2/dp_dd; w^2 = 1000*(cp/cv)*dp_dd/mm when that is non-negative; jt = (T*dp_dt/(d*dp_dd) - 1)/(d*cp); kappa = w^2*mm/(1000*R*T*z).", "quantifier": "every state with d above the cut-off, exact real arithmetic", "why_tests_cant": "Identities over all states.", "anchors": ["src/detail.rs: Detail::properties"]}
{"id": "C29", "title": "GERG density derivatives are derivatives of the returned pressure", "statement": "As C25 for Gerg2008.", "quantifier": "all compositions, all T>0, all D>0, exact real arithmetic", "why_tests_cant": "As C25.", "anchors": ["src/gerg2008.rs: Gerg2008::properties, Gerg2008::alphar, Gerg2008::pressure"]}
{"id": "C30", "title": "GERG temperature derivatives are consistent", "statement": "dp_dt is the temperature derivative of pressure(), d2p_dtd the mixed second derivative, s minus the temperature derivative of the Helmholtz energy, cv the temperature derivative of u.", "quantifier": "new objects with any composition with some fraction above 1e-7 in absolute value, all T>1e-7, all D, exact real arithmetic", "why_tests_cant": "As C25.", "anchors": ["src/gerg2008.rs: Gerg2008::properties, Gerg2008::alpha0, Gerg2008::alphar"]}
{"id": "C31", "title": "GERG energy identities", "statement": "h = u + p/d, g = h - T*s at every state point with d>0.", "quantifier": "every object state, exact real arithmetic", "why_tests_cant": "Identities over all states.", "anchors": ["src/gerg2008.rs: Gerg2008::properties"]}
{"id": "C32", "title": "GERG heat capacity, speed of sound, Joule-Thomson and isentropic exponent relations", "statement": "As C28 for Gerg2008.", "quantifier": "every state with d above the cut-off, exact real arithmetic", "why_tests_cant": "Identities over all states.", "anchors": ["src/gerg2008.rs: Gerg2008::properties"]}
{"id": "C33", "title": "Ideal-gas limit", "statement": "At zero density both models give z = 1, p = 0, dp_dd = R*T, dp_dt = 0, cp - cv = R, d2p_dd2 = 0, jt = 1e20; and z tends to 1 as the density tends to zero at fixed T and x.", "quantifier": "all compositions, all T>0, exact real arithmetic", "why_tests_cant": "A limit statement.", "anchors": ["src/detail.rs: Detail::properties, Detail::pressure", "src/gerg2008.rs: Gerg2008::properties, Gerg2008::pressure"]}
{"id": "C34", "title": "pressure() and properties() agree", "statement": "At the same state, the pressure and z produced by properties() equal those produced by pressure().", "quantifier": "every object state, exact real arithmetic", "why_tests_cant": "Two code paths must agree on all inputs.", "anchors": ["src/detail.rs: Detail::pressure, Detail::properties", "src/gerg2008.rs: Gerg2008::pressure, Gerg2008::properties"]}
{"id": "C35", "title": "density() recovers a density from its pressure", "statement": "If p is the pressure the equation of state gives at (t,d0,x), dP/dD and P are at least 1e-15 there and the search starts at d0 (d = -d0), then density() returns Ok and the density is exactly d0, for both models.", "quantifier": "all compositions, T, d0 with 1e-15<=d0<=exp(7), exact real arithmetic; GERG with iflag<=0 on every object reachable by API calls", "why_tests_cant": "A round trip over a continuum of states.", "anchors": ["src/detail.rs: Detail::density", "src/gerg2008.rs: Gerg2008::density"]}
{"id": "C36", "title": "Speed of sound is never negative and never the root of a negative number", "statement": "After properties(), w >= 0, and when 1000*cp/cv*dp_dd/mm is negative both w and kappa are 0. In any arithmetic w is the square root of that quantity unless it is below zero, and the root of zero then.", "quantifier": "every object state (GERG: every state reachable by API calls); the sign in exact real arithmetic, the clamp in any arithmetic", "why_tests_cant": "All states, including two-phase states where dp_dd<0.", "anchors": ["src/detail.rs: Detail::properties", "src/gerg2008.rs: Gerg2008::properties"]}
{"id": "C37", "title": "Newton steps go in the right direction", "statement": "In the density iteration, at a mechanically stable point, the next density is larger than the current one exactly when the computed pressure is below the requested one, and unchanged exactly when it equals it.", "quantifier": "all states with P,dP/dD>=1e-15, p>0, exact real arithmetic", "why_tests_cant": "All states.", "anchors": ["src/detail.rs: Detail::density", "src/gerg2008.rs: Gerg2008::density"]}
{"id": "C38", "title": "The C interface mirrors the Rust API and handles do not interfere", "statement": "For any sequence of FFI calls on any number of live handles, each handle behaves exactly like a Rust object receiving the corresponding method calls; calls on one handle never change another; freeing null is a no-op; error out-parameters are always written with the operation's outcome; a null handle aborts instead of reading memory.", "quantifier": "every finite sequence of FFI calls over any number of handles", "why_tests_cant": "All interleavings of calls on all handles.", "anchors": ["src/ffi.rs: aga8_*, gerg_*"]}
{"id": "C39", "title": "GERG short-form shortcut and pure-fluid reducing parameters are right", "statement": "Sharing propane's exponents among the short-form fluids gives the same temperature terms as each fluid's own exponents; for a pure fluid the reducing density and temperature are its critical ones; every pair with a departure function has a non-zero departure weight and vice versa.", "quantifier": "every component, every pair, every temperature; the pure-fluid part in exact real arithmetic up to the printed precision of the GVIJ table", "why_tests_cant": "All 21 fluids and 210 pairs; tests run two mixtures.", "anchors": ["src/gerg2008.rs: Gerg2008::tterms, Gerg2008::setup, Gerg2008::reducingparameters, MNUMB, FIJ, GVIJ, GTIJ, BTIJ, DC, TC"]}
{"id": "C40", "title": "Absent components do not matter", "statement": "DETAIL: on a new object z, pressure, their derivatives and the energies depend only on the strictly positive fractions; replacing a zero fraction by any non-positive number changes none of them. GERG: the same with threshold 1e-15.", "quantifier": "new objects with any inputs whose temperature, and some fraction of both compositions, exceed 1e-7 in absolute value, any arithmetic", "why_tests_cant": "All subsets of absent components.", "anchors": ["src/detail.rs: Detail::x_terms, Detail::alpha0_detail", "src/gerg2008.rs: Gerg2008::reducingparameters, Gerg2008::alphar"]}
{"id": "C41", "title": "normalize() in IEEE arithmetic", "statement": "In f64 arithmetic normalize() on non-negative, finite components with a sum between 2^-1021 and 2^1022 yields non-negative fractions whose sum is 1 within 2^-48, which check() accepts. (Boundary finding: for positive sums of at most 2^-1025 the factor 1/sum overflows, normalize() returns Ok with infinite and NaN fractions, and check() accepts the result if some fraction was zero.)", "quantifier": "every f64 composition in the stated range", "why_tests_cant": "Rounding behaviour over all inputs.", "anchors": ["src/composition.rs: Composition::normalize, Composition::sum"]}
{"id": "C42", "title": "Refuted: an accepted composition is physically meaningful", "statement": "One would expect that a composition accepted by check() has all fractions non-negative and that Err(Empty) is only returned when all fractions are zero, as documented. Neither holds: negative fractions are accepted and cancelling fractions are reported Empty. What holds, for non-negative fractions: Err(Empty) means every fraction is below 1e-10, acceptance means none exceeds 1.01, and all-zero fractions are reported Empty.", "quantifier": "every composition", "why_tests_cant": "Claims about every accepted input.", "anchors": ["src/composition.rs: Composition::check, CompositionError::Empty"]}
{"id": "C43", "title": "DETAIL pressure is the AGA 8 equation of state", "statement": "For a freshly evaluated state, pressure() is D*R*T*Z with Z the AGA 8 DETAIL expression written with the mixture parameters K, U, G, Q, F and the second virial coefficient double sum over component pairs. The equation is checked with the constants held by the crate; that those constants are the published ones is not claimed.", "quantifier": "new objects with any composition with some fraction above 1e-7 in absolute value (negative fractions count as zero), all T>1e-7, all D, exact real arithmetic", "why_tests_cant": "Equality of functions: the loops, caches and half-sums of the code against the closed formula.", "anchors": ["src/detail.rs: Detail::setup, Detail::x_terms, Detail::alphar, Detail::pressure"]}
{"id": "C44", "title": "GERG pressure is the GERG-2008 equation of state", "statement": "For a freshly evaluated state, pressure() is D*R*T*(1+delta*d(alpha_r)/d(delta)) with alpha_r the GERG-2008 sum of pure-fluid and departure terms at the reduced density and inverse reduced temperature. The equation is checked with the constants held by the crate; that those constants are the published ones is not claimed.", "quantifier": "new objects with any composition with some fraction of at least 1e-6 (fractions up to 1e-15 count as zero), all T>1e-7, all D, exact real arithmetic", "why_tests_cant": "As C43.", "anchors": ["src/gerg2008.rs: Gerg2008::alphar, Gerg2008::tterms, Gerg2008::reducingparameters, Gerg2008::pressure"]}
{"id": "C45", "title": "density() does a bounded amount of work", "statement": "Detail::density() evaluates the equation of state at most 20 times, Gerg2008::density() at most 50 times plus one properties() call, restarting at most 3 times, for every input.", "quantifier": "every object state, any arithmetic (NaN included)", "why_tests_cant": "Termination bound over all inputs.", "anchors": ["src/detail.rs: Detail::density", "src/gerg2008.rs: Gerg2008::density"]}
{"id": "C46", "title": "A new object is clean", "statement": "new() succeeds, two new objects are identical, all public inputs and results of a new object are zero, and no sequence of API calls ever changes the equation-of-state parameters of an object.", "quantifier": "every finite history of API calls, any arithmetic", "why_tests_cant": "Invariant over all histories.", "anchors": ["src/detail.rs: Detail::new, Detail::setup", "src/gerg2008.rs: Gerg2008::new, Gerg2008::setup"]}
{"id": "C47", "title": "DETAIL energies and entropies derive from the AGA 8 Helmholtz energy", "statement": "On a new object with T > 1e-7 and D > 1e-15 and a composition that is set, properties() returns u and s such that u - T*s is R*T times the ideal-gas Helmholtz energy plus the AGA 8 residual Helmholtz energy, with the constants held by the crate. The ideal-gas constants used by DETAIL equal those used by GERG-2008.", "quantifier": "every composition, temperature and density in that range, exact arithmetic", "why_tests_cant": "Equality of functions over all states; the tests compare two states.", "anchors": ["src/detail.rs: properties, alpha0_detail, alphar, setup", "src/gerg2008.rs: setup"]}
{"id": "C48", "title": "density() reports bad pressures and temperatures", "statement": "In IEEE arithmetic, density() of either model returns Err whenever the pressure is NaN, infinite, zero or negative, or the temperature is NaN, infinite or zero, whatever the composition, the initial density, iflag and the earlier history of the object are. When DETAIL's density() returns Ok, the density it leaves is finite and positive. Nothing is claimed for negative temperatures or bad compositions.", "quantifier": "every f64 state (for GERG: every reachable one), every iflag, every math library whose ln is finite only on finite positive numbers (and, for the second part, whose exp is finite and positive between -101 and 8)", "why_tests_cant": "The search runs up to 20 or 50 rounds through an equation of state with NaN-propagating arithmetic and comparisons that are silently false on NaN; tests can only try a few bad values from a few starting states.", "anchors": ["src/detail.rs: Detail::density", "src/gerg2008.rs: Gerg2008::density"]}
{"id": "C49", "title": "The density search converges near a well-behaved isotherm", "statement": "In exact arithmetic, density() of either model returns Ok whenever (a) over the densities within a factor e of the start of the search the logarithmic slope D/P*dP/dD of the isotherm, as pressure() and properties() report it, stays between m and 1.4 m for some m > 0, (b) pressure and slope are at least 1e-15 there, and (c) the pressure at the start differs from the requested one by at most 0.4 m in the logarithm. There is then exactly one density in that range with the requested pressure, and the density returned agrees with it to a relative 5.6e-8. In particular, for every object and temperature from 1 K to 1e6 K there is a pressure below which the search started from the ideal-gas density always succeeds, down to 3e-15 kPa, and the density found is within about 4 per cent of the ideal-gas one.", "quantifier": "every object (for GERG-2008 every object reachable through the public interface, with a flag that is not positive), temperature, composition, requested pressure and start density meeting the conditions", "why_tests_cant": "Convergence has to hold for a continuum of states; a test runs the search at finitely many pressures, and the number of rounds needed depends on the state.", "anchors": ["src/detail.rs: Detail::density", "src/detail.rs: Detail::pressure", "src/gerg2008.rs: Gerg2008::density", "src/gerg2008.rs: Gerg2008::pressure"]}
{"id": "C50", "title": "The results obey thermodynamics along every process", "statement": "Take any differentiable path of temperatures and densities at fixed composition and let P, U, H, G, S be what properties() reports along it. Then the first law dU = T dS - P dV holds along it, and likewise dH = T dS + V dP and dG = -S dT + V dP; when the pressure is kept the enthalpy changes by cp per kelvin, when the enthalpy is kept the temperature changes by jt per kPa, and when the entropy is kept the pressure changes with the mass density at rate w^2 and P'/P = kappa D'/D (the last two where dp_dd, cv and mm are positive).", "quantifier": "every composition with positive fractions adding up to one, every differentiable path with T > 1e-7 and D > 1e-15, exact arithmetic, results on new objects", "why_tests_cant": "Differential identities between results along all paths through all states.", "anchors": ["src/detail.rs: Detail::properties", "src/gerg2008.rs: Gerg2008::properties"]}
{"id": "C51", "title": "Positive ideal-gas heat capacity; every gas is stable at low density", "statement": "For every composition with non-negative fractions adding up to one and every temperature above 1e-7 K, properties() at zero density reports cv >= 1.47 R, cp = cv + R, 1 < cp/cv < 1.681, a positive speed of sound w with w^2 = 1000 (cp/cv) R T / mm, and kappa = cp/cv. And there is a positive density below which properties() reports cv >= 1.4 R, cp >= cv, dp_dd > 0, z > 0 and w > 0.", "quantifier": "every composition, every temperature above 1e-7 K, both models, exact arithmetic, new objects", "why_tests_cant": "Lower bound over all compositions and temperatures; several table coefficients are negative, so it is not visible term by term.", "anchors": ["src/detail.rs: Detail::alpha0_detail, Detail::properties, TH0I, n0i (Detail::setup)", "src/gerg2008.rs: Gerg2008::alpha0, Gerg2008::properties"]}
{"id": "C52", "title": "Refuted: a NaN input does not poison later GERG-2008 results", "statement": "After a NaN temperature or composition was evaluated on a GERG-2008 object, setting valid inputs again gives the results of a new object. (Finding: false of the code in IEEE arithmetic. After a NaN temperature the next temperature is ignored: the compressibility factor reported is, bit for bit, the one for the temperature before the NaN; on a new object it is NaN. After a NaN composition the reducing parameters of the composition before it stay in use.)", "quantifier": "every history before, every f64 state with NaN temperature, every valid follow-up state with the same composition (without departure functions for the general theorem); complete runs for the witnesses", "why_tests_cant": "It is a property of histories with exact IEEE comparisons; a test would have to guess the poisoning history.", "anchors": ["src/gerg2008.rs: Gerg2008::alphar, Gerg2008::reducingparameters, Gerg2008::pressure"]}
{"id": "C53", "title": "Stale results never leak into later results", "statement": "Two histories of public calls on new DETAIL (GERG) objects that differ only in the values assigned to result fields (z, mm, dp_dd, ..., kappa; for GERG also the unused slot 0 of the fractions) return the same values from every call, leave the same temperature, pressure, density and fractions, and give the same pressure, z and properties from then on. The outcome of density, and the density it stores, do not depend on the density left by earlier calls unless that is a negative user estimate.", "quantifier": "all pairs of finite histories of assignments and calls with equal inputs, all numbers including NaN and infinities, any arithmetic; for density: all objects, all pairs of field assignments with equal temperature, pressure and fractions and densities above -1e-15", "why_tests_cant": "the claim compares all pairs of histories of any length and all values of eighteen fields; a leak may need a particular earlier result to show", "anchors": ["src/detail.rs: Detail::pressure, density, properties, set_composition", "src/gerg2008.rs: Gerg2008::pressure, density, properties, alphar, reducingparameters"]}
{"id": "C54", "title": "A density that was found is accurate", "statement": "When density() of either model returns Ok for a positive pressure, and the logarithmic slope D/P*dP/dD of the isotherm, as pressure() and properties() report it, stays between m and M over the densities within 1e-7*(1+M/m) of the returned one (logarithmically), then exactly one density in that range has the requested pressure and the returned one agrees with it to 1e-7*(M/m-1). The z stored beside it is positive, and z*d*R*t agrees with the requested pressure to 1e-7*|slope-1|, the slope taken at a density within 1e-7 of the stored one (z belongs to the last evaluated density, not to the stored one).", "quantifier": "every object (for GERG-2008 every object reachable through the public interface, any flag), every temperature, pressure, composition and start density for which density() returns Ok, every m and M; exact arithmetic", "why_tests_cant": "a statement about every converged state, and about the uniqueness of a root of the equation of state near it", "anchors": ["src/detail.rs: Detail::density", "src/gerg2008.rs: Gerg2008::density"]}
{"id": "C55", "title": "Refuted: results depend only on the proportions of an accepted composition", "statement": "set_composition accepts a composition whose fractions sum to anything within 1 % of one and does not rescale it. Two accepted compositions with the same proportions can therefore give different results: pure methane entered as 1 and as 0.99 gives molar masses 16.043 and 15.88257 g/mol with DETAIL, 16.04246 and 15.8820354 g/mol with GERG-2008, although normalize turns the second into the first. What holds: the molar mass of an accepted composition is exactly the sum of its fractions times the molar mass of its normalised form, so for non-negative fractions the error is at most 1 %, and normalising an accepted composition always succeeds and gives an accepted composition. (Exact arithmetic.)", "quantifier": "every accepted composition, every DETAIL and GERG object it is given to", "why_tests_cant": "The scaling law and the 1 % bound range over all compositions accepted; a test compares single compositions.", "anchors": ["/repo/src/composition.rs: Composition::check, Composition::normalize", "/repo/src/detail.rs: Detail::set_composition, Detail::molar_mass", "/repo/src/gerg2008.rs: Gerg2008::set_composition, Gerg2008::molar_mass"]}
{"id": "C56", "title": "The two models describe the same ideal gas", "statement": "After any history of calls on a DETAIL object and on a GERG-2008 object, at zero density, the same non-zero temperature and the same mole fractions (none of them in (0, 1e-15], which only GERG skips), properties reports the same isochoric heat capacity cv in both models. cp differs by exactly the difference of the two gas constants 8.31451 and 8.314472, the internal energy by 298.15 times that difference and the enthalpy by (298.15 - T) times it (for fractions that sum to one), i.e. by less than 0.02 J/mol below 800 K. Switching between the two models introduces no other jump. (Exact arithmetic.)", "quantifier": "every pair of call histories on new objects, every common composition and temperature", "why_tests_cant": "The agreement is an identity between two independently coded sets of formulas and coefficient tables over all compositions and temperatures; a test compares single points, and the code keeps the numbers of both models within tolerances of reference values only.", "anchors": ["/repo/src/detail.rs: Detail::properties, Detail::alpha0_detail, Detail::setup", "/repo/src/gerg2008.rs: Gerg2008::properties, Gerg2008::alpha0, Gerg2008::setup"]}
{"id": "C57", "title": "Results depend continuously on temperature, density and composition", "statement": "Over the reals: if the temperature, density and mole fractions given to new objects converge, the results of properties converge to the results for the limit. Molar mass, z, p, dp_dd, dp_dt, u, s and cv do so at every density (for GERG-2008 also h, g and d2p_dtd); d2p_dd2, cp, jt, w and kappa (for DETAIL also h and g) where the density is above 1e-15 and the quantities the code divides by are not zero in the limit. DETAIL needs a temperature above 1e-7 K and one fraction above 1e-7; components may appear or vanish on the way. GERG-2008 needs a temperature above 1e-7 K, one fraction of at least 1e-6 and no fraction of exactly 1e-15 in the limit.", "quantifier": "every filter (so every sequence and every direction of approach), every limit state meeting the conditions, real arithmetic", "why_tests_cant": "a jump in a result can sit at any boundary between branches of the code; a finite set of evaluations cannot exclude one", "anchors": ["src/detail.rs: Detail::properties, x_terms, alphar, alpha0_detail", "src/gerg2008.rs: Gerg2008::properties, reducingparameters, alphar, alpha0"]}
{"id": "C58", "title": "Second virial coefficient; refuted: d2p_dd2 is the derivative of dp_dd at zero density", "statement": "Over the reals, on new objects at fixed temperature and composition: as the density tends to zero, (z - 1)/D tends to the second virial coefficient of the model's equation of state, and the reported dp_dd has slope 2*R*T*B at zero density. The reported d2p_dd2 is zero at every density up to 1e-15, so it is not the derivative of dp_dd at zero density (pure methane is the witness for both models).", "quantifier": "every composition with a component present, every temperature above 1e-7 K, both models, exact real arithmetic", "why_tests_cant": "A limit at zero density cannot be evaluated; a finite-difference test at small density loses all digits and cannot separate B from rounding.", "anchors": ["src/detail.rs: alphar, properties", "src/gerg2008.rs: alphar, properties", "EPSILON"]}
{"id": "C59", "title": "DETAIL's f64 compression factor and pressure are close to the AGA 8 equation", "statement": "Given a math library whose exp and powf are within 2^-52 relative error and powi within 2^-50, on a new DETAIL object pressure() and properties() produce a finite z and a finite pressure; z differs from the AGA 8 equation evaluated exactly by at most 1e-9 of the sum of the absolute values of the equation's terms, and the pressure from D R T Z by at most D R T times as much; the dp_dd that properties() stores differs from R T d(DZ)/dD in the same sense. For pure methane at 184 K to 600 K and up to 10 mol/l this makes z right to 1.5e-8.", "quantifier": "every finite f64 temperature from 1 K to 1000 K, every f64 density that is zero or from 1e-4 to 1000 mol/l and at most three times the reducing density, every composition whose fractions are zero, negative or from 1e-10 to 2 with one at least 0.01, every sufficiently accurate math library", "why_tests_cant": "A test compares a few states with tabulated values; rounding errors and overflow must be bounded at every f64 input, and a bound on the distance to the exact equation cannot be observed by running f64 code.", "anchors": ["src/detail.rs: Detail::pressure", "src/detail.rs: Detail::properties", "src/detail.rs: Detail::x_terms", "src/detail.rs: Detail::alphar", "src/detail.rs: Detail::setup"]}
{"id": "C60", "title": "The f64 results of GERG-2008 stay close to the equation", "statement": "With a math library whose exp, powf, powi and ln are accurate to a few ulps, for a new GERG-2008 object with finite inputs in an ordinary range, pressure() and properties() give a finite compression factor and pressure, and properties() a finite dp_dd, and each differs from the GERG-2008 equation evaluated exactly by at most 1e-9 of the sum of the absolute values of the terms of that equation. For every pure component above its reducing temperature and up to its reducing density this is at most 2e-8 in the compression factor.", "quantifier": "every accurate math library, every composition, temperature and density with 1 K <= T <= 10000 K, T between a tenth and a hundred times the reducing temperature, density zero or 1e-4 to 1000 mol/l and at most 2.8 reducing densities, fractions zero, negative or 1e-10 to 2 with one at least 0.01", "why_tests_cant": "A test compares a handful of states with numbers computed by the same arithmetic; a bound for all states needs an error analysis of every operation.", "anchors": ["src/gerg2008.rs: Gerg2008::pressure", "src/gerg2008.rs: Gerg2008::properties", "src/gerg2008.rs: alphar", "src/gerg2008.rs: tterms", "src/gerg2008.rs: reducingparameters"]}
{"id": "C61", "title": "A density the f64 GERG-2008 search accepts is close to an exact solution", "statement": "With an accurate math library, when density() of a new GERG-2008 object reports success in f64 arithmetic, and around the density found the logarithmic slope d ln p / d ln D of the equation stays between m > 0 and M and the terms of the equation do not cancel by more than a factor K, then the GERG-2008 equation, evaluated exactly, has a density with exactly the requested pressure, the density found agrees with it to a relative 1e-7 (M/m - 1) plus a stated rounding part, and no other solution lies as near.", "quantifier": "every accurate math library, every flag, every composition, temperature and pressure in the stated range (fractions zero or 1e-10 to 2, T 1 K to 10000 K and a tenth to a hundred reducing temperatures, p 1e-6 to 1e9 kPa), every outcome of the search with a density of 2e-4 to 900 mol/l and at most 2.79 reducing densities", "why_tests_cant": "The stopping test sees rounded pressures and derivatives only; that it implies closeness to a true solution for all inputs needs an error analysis of the whole Newton step.", "anchors": ["src/gerg2008.rs: Gerg2008::density", "src/gerg2008.rs: Gerg2008::pressure", "src/gerg2008.rs: Gerg2008::properties", "src/gerg2008.rs: pseudocriticalpoint"]}
{"id": "C62", "title": "The f64 GERG-2008 density search converges", "statement": "With an accurate math library, density() of a new GERG-2008 object with a flag that is not positive reports success in f64 arithmetic, started from the ideal-gas density or from a density given as a negative number, whenever within a factor exp r of the start, for some r from 0.01 to 1, the logarithmic slope stays between m and 1.4 m, the terms of the equation do not cancel by more than K with K (1 + 1/m) <= 22 - 9 r, and the pressure at the start is within a factor exp(0.4 m r) of the requested one. The density found agrees with the unique exact solution there to a relative 5.6e-8 + 2.1e-9 K (1 + 1/m). At low pressure this holds for every mixture above its reducing temperature, to 6.2e-8.", "quantifier": "every accurate math library, every flag that is not positive, every composition, temperature, pressure and start in the stated range; the low-pressure form: every mixture with fractions adding up to at most 1.01, T from the reducing temperature to a hundred times it, ideal-gas density at least 3e-4 mol/l and at most 3.6e-4 reducing densities", "why_tests_cant": "Termination with success within 50 rounds of rounded arithmetic, for a continuum of inputs.", "anchors": ["src/gerg2008.rs: Gerg2008::density", "src/gerg2008.rs: Gerg2008::pressure", "src/gerg2008.rs: Gerg2008::properties", "src/gerg2008.rs: pseudocriticalpoint"]}
{"id": "C63", "title": "A density the f64 DETAIL search accepts is close to an exact solution", "statement": "With an accurate math library, when density() of a new DETAIL object reports success in f64 arithmetic, and around the density found the logarithmic slope d ln p / d ln D of the AGA 8 equation stays between m > 0 and M and the terms of the equation do not cancel by more than a factor K, then the equation, evaluated exactly, has a density with exactly the requested pressure, the density found agrees with it to a relative 1e-7 (M/m - 1) plus a stated rounding part, and no other solution lies as near.", "quantifier": "every accurate math library, every composition, temperature and pressure in the stated range (fractions not positive or 1e-10 to 2, T 1 K to 1000 K, p 1e-6 to 1e9 kPa), every outcome of the search with a density of 2e-4 to 900 mol/l and at most 2.99 reducing densities", "why_tests_cant": "The stopping test sees rounded pressures and derivatives only; that it implies closeness to a true solution for all inputs needs an error analysis of the whole Newton step.", "anchors": ["src/detail.rs: Detail::density", "src/detail.rs: Detail::pressure", "src/detail.rs: Detail::properties"]}
{"id": "C64", "title": "The f64 DETAIL density search converges", "statement": "With an accurate math library, density() of a new DETAIL object reports success in f64 arithmetic, started from the ideal-gas density or from a density given as a negative number, whenever within a factor exp r of the start, for some r from 0.01 to 1, the logarithmic slope stays between m and 1.4 m, the terms of the equation do not cancel by more than K with K (1 + 1/m) <= 22 - 3 r, and the pressure at the start is within a factor exp(0.4 m r) of the requested one. The density found agrees with the unique exact solution there to a relative 5.6e-8 + 2.1e-9 K (1 + 1/m). For methane this holds up to 0.037 mol/l, to 6.2e-8.", "quantifier": "every accurate math library, every composition, temperature, pressure and start in the stated range; the methane form: T 184 K to 600 K, ideal-gas density 3e-4 to 0.037 mol/l", "why_tests_cant": "Termination with success within 20 rounds of rounded arithmetic, for a continuum of inputs.", "anchors": ["src/detail.rs: Detail::density", "src/detail.rs: Detail::pressure", "src/detail.rs: Detail::properties"]}
{"id": "C65", "title": "f64 accuracy of the DETAIL entropy, energies, heat capacity and dp_dt", "statement": "With an accurate math library, properties() of a new DETAIL object stores an entropy, internal energy, enthalpy, Gibbs energy, isochoric heat capacity and temperature derivative of the pressure that are finite in f64 arithmetic and differ from the exact values, defined by thermodynamics from the AGA 8 Helmholtz energy, by at most 1e-9 of the sum of the absolute values of the terms. For pure methane the entropy is within 2.9e-6 and the heat capacity within 1.7e-6 J/(mol K).", "quantifier": "every accurate math library, every composition, every temperature of 50 K to 1000 K, every density of 1e-4 mol/l up to three times the reducing density; the methane form: 184 K to 600 K, 1e-4 to 10 mol/l", "why_tests_cant": "Rounding errors at finitely many points say nothing about the error at the other inputs or with another math library.", "anchors": ["src/detail.rs: Detail::properties", "src/detail.rs: Detail::alpha0_detail", "src/detail.rs: Detail::alphar"]}
{"id": "C66", "title": "f64 accuracy of the GERG-2008 entropy, energies, heat capacity and dp_dt", "statement": "With an accurate math library, properties() of a new GERG-2008 object stores an entropy, internal energy, enthalpy, Gibbs energy, isochoric heat capacity and temperature derivative of the pressure that are finite in f64 arithmetic and differ from the exact values, defined by thermodynamics from the GERG-2008 Helmholtz energy, by at most 1e-9 of the sum of the absolute values of the terms. For each of the 21 pure fluids the entropy is within 1.6e-5 and the heat capacity within 6.6e-6 J/(mol K), above the reducing temperature and up to the reducing density.", "quantifier": "every accurate math library, every composition, every temperature of 50 K to 1000 K, every density of 1e-4 mol/l up to 2.8 times the reducing density; the pure form: every component", "why_tests_cant": "Rounding errors at finitely many points say nothing about the error at the other inputs or with another math library.", "anchors": ["src/gerg2008.rs: Gerg2008::properties", "src/gerg2008.rs: Gerg2008::alpha0", "src/gerg2008.rs: Gerg2008::alphar"]}
{"id": "C67", "title": "f64 accuracy of the isobaric heat capacity, the speed of sound, the isentropic exponent and the Joule-Thomson coefficient", "statement": "With an accurate math library, properties() of a new object stores an isobaric heat capacity cp, a speed of sound w and an isentropic exponent kappa that are finite in f64 arithmetic and have relative errors of at most 2.7e-9 K, 2.5e-9 K and 6.7e-9 K, and a finite Joule-Thomson coefficient with an error of at most 4.7e-9 K of the size of its terms, where K is the factor that the compression factor, the pressure derivatives and cv lose to cancellation at the state. For every GERG-2008 gas mixture above its reducing temperature at up to a thousandth of its reducing density, and for DETAIL methane at 184 K to 600 K and up to 0.1 mol/l, K = 5.", "quantifier": "every accurate math library, every composition with non-negative fractions, every temperature from 50 K (GERG-2008: to 1000 K), every density from 1e-4 mol/l in the range of C59/C60 at which K <= 10000; both equations", "why_tests_cant": "Rounding errors at finitely many points say nothing about the error at the other inputs or with another math library.", "anchors": ["src/detail.rs: Detail::properties", "src/gerg2008.rs: Gerg2008::properties"]}
{"id": "C68", "title": "The f64 DETAIL density of methane at pipeline pressures", "statement": "With an accurate math library, density() of a new DETAIL object holding pure methane reports success in f64 arithmetic at 200 K to 600 K and at pressures up to R T min(5, 1 + 0.022 (T - 200)), which is 7.9 MPa at 300 K. The computed density is within the factor exp(1.03e-7) of the smallest positive density that has exactly the requested pressure under the AGA 8 equation, that is of the gas density.", "quantifier": "every accurate math library, every pair of a temperature from 200 K to 600 K and a pressure whose ideal-gas density is from 3e-4 mol/l to min(5, 1 + 0.022 (T - 200)) mol/l, every density field that is not negative", "why_tests_cant": "Convergence of a rounded iteration and the absence of a smaller root of the equation are claims about a continuum of temperatures and pressures.", "anchors": ["src/detail.rs: Detail::density", "src/detail.rs: Detail::pressure", "src/detail.rs: Detail::alphar"]}
{"id": "C69", "title": "The f64 GERG-2008 density of methane at pipeline pressures", "statement": "With an accurate math library, density() with a flag that is not positive of a new GERG-2008 object holding pure methane reports success in f64 arithmetic at 200 K to 600 K and at pressures up to R T min(5, 1 + 0.017 (T - 200)), which is 6.7 MPa at 300 K. The computed density is within the factor exp(1.03e-7) of the smallest positive density that has exactly the requested pressure under the GERG-2008 equation, that is of the gas density.", "quantifier": "every accurate math library, every pair of a temperature from 200 K to 600 K and a pressure whose ideal-gas density is from 3e-4 mol/l to min(5, 1 + 0.017 (T - 200)) mol/l, every density field that is not negative, every flag that is not positive, every value of the unused entry 0 of the composition", "why_tests_cant": "Convergence of a rounded iteration and the absence of a smaller root of the equation are claims about a continuum of temperatures and pressures.", "anchors": ["src/gerg2008.rs: Gerg2008::density", "src/gerg2008.rs: Gerg2008::pressure", "src/gerg2008.rs: Gerg2008::alphar"]}
{"id": "C70", "title": "From pressure and temperature to the compression factor, in f64", "statement": "With an accurate math library, calling density() and then properties() on the same object gives, in f64 arithmetic, a density close to an exact solution of the equation at the requested pressure, a compression factor close to the exact p / (d R T) at that solution, and a pressure close to the requested one. For methane at pipeline pressures (the ranges of C68 and C69) the factors are exp(1.03e-7), exp(1.3e-7) and exp(1.9e-7), in both models, and the solution is the gas density; for every GERG-2008 mixture at low pressure they are exp(6.2e-8), exp(1.4e-8) and exp(7.6e-8). In general they are given in terms of the slope and the cancellation of the equation near the starting density.", "quantifier": "every accurate math library, every composition, temperature, pressure and starting density that meet the conditions of C62 or C64; for methane every pair of a temperature and a pressure of C68 or C69; for GERG-2008 every mixture in the low-pressure range of C62", "why_tests_cant": "It is a statement about a continuum of inputs and about the state that the first call leaves for the second.", "anchors": ["src/detail.rs: Detail::density", "src/detail.rs: Detail::properties", "src/gerg2008.rs: Gerg2008::density", "src/gerg2008.rs: Gerg2008::properties"]}
{"id": "C71", "title": "GERG-2008 gas mixtures: stability, and accuracy of the properties in f64", "statement": "For every mixture of the 21 components, from 1.1 to 100 times its reducing temperature and up to half its reducing density: in exact arithmetic the pressure returned by pressure() increases strictly with the density, so a pressure belongs to at most one density of this range; in f64 arithmetic with an accurate math library the compression factor, pressure, dp_dd, dp_dt and isochoric heat capacity that properties() gives on a new object are finite, positive and have relative errors of at most 1e-9 K, and the isobaric heat capacity, speed of sound and isentropic exponent at most 2.7e-9 K, 2.5e-9 K and 6.7e-9 K, the Joule-Thomson coefficient 4.7e-9 K of the sum of its terms. K is at most 13 up to a tenth of the reducing density, 110 up to three tenths and 542 up to one half; from 1.25 times the reducing temperature it is at most 10, 54 and 231.", "quantifier": "every composition with fractions that are not negative and sum to at most 1.01 (in f64: at least 0.99, each zero or at least 1e-10), every temperature and density in the range (in f64: 50 K to 1000 K and at least 1e-4 mol/l), every accurate math library", "why_tests_cant": "The mixtures form a continuum of 20 dimensions besides temperature and density; the statement bounds sums with cancellation on all of it.", "anchors": ["src/gerg2008.rs: Gerg2008::properties", "src/gerg2008.rs: Gerg2008::pressure", "src/gerg2008.rs: Gerg2008::alphar", "src/gerg2008.rs: Gerg2008::reducingparameters"]}
{"id": "C72", "title": "GERG-2008 gas mixtures: density at moderate pressures and the properties after it, in f64", "statement": "With an accurate math library, for every mixture of the 21 components from 1.1 to 100 times its reducing temperature and every pressure whose ideal-gas density p/(R T) is at least 3e-4 mol/l and at most 0.05 times the reducing density (0.06 times from 1.25 times the reducing temperature on), density() on a new object with a flag that is not positive reports success. The equation has exactly one density up to half the reducing density with the requested pressure, and the computed density is within the factor exp(9.7e-8) of it. properties() called next keeps the density, gives a compression factor within exp(2.9e-8) of the exact one and a pressure within exp(1.3e-7) of the requested one, positive pressure derivatives and isochoric heat capacity with relative errors of at most 1.3e-8 at the density found, and an isobaric heat capacity, speed of sound and isentropic exponent with relative errors of at most 3.6e-8, 3.3e-8 and 8.8e-8. The density found is at least 1e-4 mol/l and at most a tenth of the reducing density.", "quantifier": "every composition with fractions that are zero or at least 1e-10 and sum to at most 1.01 (for properties: at least 0.99, and 50 K to 1000 K), every temperature and pressure in the range, every accurate math library", "why_tests_cant": "The iteration must converge to the gas root for a 20-dimensional continuum of mixtures and every temperature and pressure in the range.", "anchors": ["src/gerg2008.rs: Gerg2008::density", "src/gerg2008.rs: Gerg2008::properties", "src/gerg2008.rs: Gerg2008::pressure", "src/gerg2008.rs: Gerg2008::alphar"]}
{"id": "C73", "title": "The rounding error of the second derivatives of the pressure", "statement": "With an accurate math library, properties() on a new DETAIL or GERG-2008 object stores a finite second density derivative of the pressure that differs from the second derivative of the exact equation by at most 1e-9 of the size of its terms. GERG-2008 also stores a mixed temperature and density derivative with the same accuracy. For a pure fluid above its reducing temperature and up to its reducing density the two GERG-2008 errors are at most 2.61e-5 T/D_c and 3.36e-5 kPa/(mol/l)/K.", "quantifier": "every composition, temperature and density in the stated range (density of at least 1e-4 mol/l; GERG-2008: temperature of at least 50 K), every accurate math library", "why_tests_cant": "A finite-difference test of a second derivative in f64 is itself inaccurate, and only samples a continuum of states.", "anchors": ["src/detail.rs: Detail::properties", "src/detail.rs: Detail::alphar", "src/gerg2008.rs: Gerg2008::properties", "src/gerg2008.rs: Gerg2008::alphar"]}
{"id": "C74", "title": "AGA8 DETAIL natural gases: density at moderate pressures and the properties after it, in f64", "statement": "With an accurate math library, for every natural gas in the normal range of compositions at 263 K to 400 K and every pressure whose ideal-gas density p/(R T) is 3e-4 mol/l to 0.66 mol/l (up to 1.44 MPa at 263 K, 1.64 MPa at 300 K), density() on a new object reports success. The equation has exactly one density up to 2 mol/l with the requested pressure, and the computed density is within the factor exp(7.2e-8) of it. properties() called next gives a compression factor within exp(2e-8) of the exact one and a pressure within exp(8.4e-8) of the requested one. The pressure of the equation grows strictly with the density up to 2 mol/l, and properties() at any given density up to 2 mol/l stores a positive compression factor within 2.2e-9 and a positive dp_dd within 3.8e-9 R T of the equation.", "quantifier": "every composition within the limits (methane at least 45 %, nitrogen up to 50 %, carbon dioxide up to 30 %, ethane and hydrogen up to 10 %, and limits on the other sixteen components) whose fractions are zero or at least 1e-10, every temperature, pressure and density in the range, every accurate math library", "why_tests_cant": "The iteration must converge to the gas root for a 20-dimensional continuum of mixtures and every temperature and pressure in the range.", "anchors": ["src/detail.rs: Detail::density", "src/detail.rs: Detail::properties", "src/detail.rs: Detail::x_terms", "src/detail.rs: Detail::alphar", "src/detail.rs: Detail::pressure"]}
{"id": "C75", "title": "AGA8 DETAIL natural gases: heat capacities, speed of sound and isentropic exponent, in f64", "statement": "With an accurate math library, for every natural gas in the normal range of compositions with fractions that sum to at least 0.99, at 263 K to 400 K and a density of 1e-4 mol/l to 1 mol/l, properties() on a new object stores dp_dd, dp_dt and cv that are positive and have a relative error of at most 1.3e-8, cp with at most 3.6e-8, the speed of sound with 3.3e-8, the isentropic exponent with 8.8e-8, and the Joule-Thomson coefficient with an error of at most 6.2e-8 of the size of its terms, all against the AGA 8 equation on real numbers. The same holds when properties() follows density() for every pressure whose ideal-gas density is 3e-4 mol/l to 0.66 mol/l. The isochoric heat capacity of the equation is above 1.15 R in this range.", "quantifier": "every composition within the limits of C74 whose fractions are zero or at least 1e-10, every temperature, density and pressure in the range, every accurate math library", "why_tests_cant": "The errors are a statement about a 20-dimensional continuum of mixtures; cancellation between the terms differs for every mixture and temperature.", "anchors": ["src/detail.rs: Detail::properties", "src/detail.rs: Detail::density", "src/detail.rs: Detail::alphar", "src/detail.rs: Detail::alpha0_detail", "src/detail.rs: Detail::x_terms"]}
{"id": "C76", "title": "A DETAIL object that meters natural gas is accurate at every sample (f64)", "statement": "One Detail object is created and used for any number of samples. For each sample the user calls set_composition, sets t and p, and calls density and properties. If every sample is a natural gas of the normal range at 263 K to 400 K with an ideal-gas density of 3e-4 to 0.66 mol/l and fractions that are zero or at least 1e-10 and sum to 0.99 to 1.01, and if compositions and temperatures change by more than 1.01e-7 or not at all from one sample to the next, then all calls succeed for every sample: the composition and temperature read back are those of the sample, the density is within the factor exp 7.2e-8 of the only density of the AGA 8 equation with the measured pressure, and z, p, the derivatives of the pressure, the heat capacities, the speed of sound, the isentropic exponent and the Joule-Thomson coefficient have the error bounds of C74 and C75, whatever was metered before.", "quantifier": "every finite list of samples of that range, of any length; every accurate math library", "why_tests_cant": "The object keeps caches and the last density between samples; a test runs one sequence of samples, and the claim is about all sequences of all compositions, temperatures and pressures of the range, in rounded arithmetic.", "anchors": ["src/detail.rs: Detail::set_composition", "src/detail.rs: Detail::density", "src/detail.rs: Detail::properties", "src/detail.rs: Detail::x_terms", "src/composition.rs: Composition::check"]}
{"id": "C77", "title": "A GERG-2008 object that meters gas mixtures is accurate at every sample (f64)", "statement": "One Gerg2008 object is created and used for any number of samples. For each sample the user calls set_composition, sets t and p, and calls density(0) and properties. If every sample is a mixture of any of the 21 components at 50 K to 1000 K and 1.1 to 100 times its reducing temperature, with an ideal-gas density from 3e-4 mol/l to 0.05 times its reducing density (0.06 times it from 1.25 times the reducing temperature on) and fractions that are zero or at least 1e-10 and sum to 0.99 to 1.01, and if compositions and temperatures change by more than 1.01e-7 or not at all from one sample to the next, then all calls succeed for every sample: the density is within the factor exp 9.7e-8 of the only density up to half the reducing density with the measured pressure, and z, the pressure returned, the derivatives of the pressure, the heat capacities, the speed of sound and the isentropic exponent have the error bounds of C72, whatever was metered before.", "quantifier": "every finite list of samples of that range, of any length; every accurate math library", "why_tests_cant": "The object keeps caches of the reducing parameters and temperature terms and the last density between samples; a test runs one sequence of samples, and the claim is about all sequences of all mixtures, temperatures and pressures of the range, in rounded arithmetic.", "anchors": ["src/gerg2008.rs: Gerg2008::set_composition", "src/gerg2008.rs: Gerg2008::density", "src/gerg2008.rs: Gerg2008::properties", "src/gerg2008.rs: Gerg2008::reducing_parameters", "src/composition.rs: Composition::check"]}
{"id": "C78", "title": "Meters on C handles are accurate whatever the program does with other handles (f64)", "statement": "A program uses the C interface with any number of handles. The calls with one of the handles are those of a meter: new, and then for each gas sample set_composition, set_pressure, set_temperature, calculate_density, calculate_properties, get_properties. Its samples are those of C76 (DETAIL) or C77 (GERG-2008). Whatever calls on other handles of either kind come between, before or after them, if the program runs without undefined behaviour then for every sample set_composition and calculate_density report Ok and get_properties gives the properties with the error bounds of C76 or C77.", "quantifier": "every program of C calls with any interleaving of the calls of different handles; every finite list of samples of the range; every accurate math library", "why_tests_cant": "The number of programs and interleavings is unbounded and the accuracy claim is about all samples in rounded arithmetic; a test runs one program.", "anchors": ["src/ffi.rs: aga8_set_composition, aga8_calculate_density, aga8_calculate_properties, aga8_get_properties", "src/ffi.rs: gerg_set_composition, gerg_calculate_density, gerg_calculate_properties, gerg_get_properties", "src/detail.rs: Detail::density", "src/gerg2008.rs: Gerg2008::density"]}
{"id": "C79", "title": "The densities a meter reads follow pressure and temperature", "statement": "Let one object meter a list of natural gas samples in IEEE-754 arithmetic (set_composition, temperature, pressure, density, properties for each). For any two samples of the list with the same composition, the second with no less pressure and no more temperature, the change of the logarithm of the density read is at least (d ln p + 0.57 d ln T)/1.09 - 1.44e-7 and at most (d ln p + 1.63 d ln T)/0.78 + 1.44e-7, where d ln p is the rise of the logarithm of the pressure and d ln T the fall of that of the temperature. In particular the density read is larger as soon as the pressure is higher by 0.2 ppm or the temperature lower by 0.3 ppm. For DETAIL these are the rates; for GERG-2008 and gas mixtures the lower rate is (d ln p + 0.9 d ln T)/1.1816 - 1.94e-7, the upper rate (d ln p + 5.7 d ln T)/0.807 + 1.94e-7, and the order holds from 0.3 ppm on.", "quantifier": "All accurate math libraries; DETAIL: all lists of natural gas samples (compositions in the normal range, 263 K to 400 K, p/(RT) from 3e-4 to 0.66 mol/l); GERG-2008: all lists of gas mixture samples of C77 (any composition, 1.1 to 100 times the reducing temperature, up to 0.05 or 0.06 of the reducing density); changes between neighbours noticed; all pairs of samples with the same composition, in any positions of the list.", "why_tests_cant": "An iteration that stops at a tolerance could return densities that go the wrong way for close pressures; that it does not is a statement about every pair of inputs.", "anchors": ["src/detail.rs:Detail::density", "src/detail.rs:Detail::pressure", "src/detail.rs:Detail::set_composition", "src/gerg2008.rs:Gerg2008::density", "src/gerg2008.rs:Gerg2008::pressure"]}
{"id": "C80", "title": "pressure() then density() at that pressure gives the density back", "statement": "In IEEE-754 arithmetic with any accurate math library: set a composition, a temperature and a density, call pressure(), store the pressure it returned in the same object and call density(). The call reports success and the density is the one that was set, within the factor exp 7.5e-8 (DETAIL, every natural gas at 263 K to 400 K and 3.5e-4 mol/l to 0.63 mol/l) or exp 1.15e-7 (GERG-2008, every gas mixture at 1.1 to 100 times its reducing temperature and up to 0.045 times its reducing density, 0.055 times it from 1.25 times the reducing temperature on).", "quantifier": "every f64 composition, temperature and density in the stated ranges, and every accurate math library", "why_tests_cant": "A test tries the round trip at a few points. That the f64 search finds the density again, from the rounded pressure and on an object whose cached values come from the first call, is a statement about a continuum of compositions, temperatures and densities.", "anchors": ["src/detail.rs: pressure, density", "src/gerg2008.rs: pressure, density"]}
{"id": "C81", "title": "Heat capacities and speed of sound of a natural gas or gas mixture are in physical order and range", "statement": "In IEEE-754 arithmetic with any accurate math library, for every natural gas at 263 K to 400 K and a density of 1e-4 mol/l to 1 mol/l, the values that AGA8 DETAIL properties() stores are in physical order and range: the isochoric heat capacity is between 9.5 and 1093 J/(mol K), the isobaric one is larger by 2.4 to 25.6 J/(mol K), the speed of sound is between 171 m/s and 1010 m/s and the isentropic exponent is between 0.6 and 5.2. The same holds when the density was found by density() first. For GERG-2008, every gas mixture of the 21 components at 50 K to 1000 K, from 1.1 times its reducing temperature on, at 1e-4 mol/l up to a tenth of its reducing density: the isochoric heat capacity is between 12 and 1123 J/(mol K), the isobaric one is larger by 6.9 to 281 J/(mol K), the speed of sound is between 0.83 and 5.4 times sqrt(R T / M), and the isentropic exponent is between 0.64 and 34; the same after density() at the pressures of C72.", "quantifier": "every f64 composition that is a natural gas (GERG-2008: every gas mixture), every temperature, density or pressure in the stated ranges, and every accurate math library", "why_tests_cant": "A test sees the values of a few gases at a few points. That no rounding, cancellation or division can make cp smaller than cv, the speed of sound NaN or absurd anywhere in the range is a statement about a continuum of inputs.", "anchors": ["src/detail.rs: properties, density", "src/gerg2008.rs: properties, density"]}
{"id": "C82", "title": "Readings in any unit, normalized and metered, give accurate results", "statement": "In IEEE-754 arithmetic with any accurate math library: a program keeps one object and, for each of any number of samples whose component readings are in any unit (percent, peak areas; their sum is 1e-9 to 1e9), calls normalize(), set_composition(), density() and properties(). Every call of every sample reports success, the mole fractions used are the readings divided by their exact sum to one part in 1e14, and every result has the accuracy of C76 (DETAIL, natural gases) or C77 (GERG-2008, gas mixtures) for these fractions.", "quantifier": "every list of samples in the stated region, of any length, with any f64 readings, temperatures and pressures, and every accurate math library", "why_tests_cant": "A test normalizes a few compositions. That the rounding in normalize() never makes check() reject the composition, never turns an absent component into a present one and never pushes the gas out of the region where the density search works is a statement about every reading, in every sequence of samples.", "anchors": ["src/composition.rs: normalize, check", "src/detail.rs: set_composition, density, properties", "src/gerg2008.rs: set_composition, density, properties"]}
{"id": "C83", "title": "cp is never below cv, whatever the rounding does", "statement": "In IEEE-754 arithmetic: after properties(), at any positive temperature, whatever the composition, the density and the history of the object, if the stored cv and dp_dd are positive and the stored cp is finite, then cp is at least cv. For GERG-2008 this holds with any math library at all, for DETAIL with any whose squares are not negative. For GERG-2008 gas mixtures from 1.1 times the reducing temperature on, up to half the reducing density, the conditions hold with every accurate math library.", "quantifier": "every object state any history can produce, every f64 composition, temperature and density, every rounding on the way", "why_tests_cant": "A test computes cp and cv at a few states where they differ by a wide margin. Near the critical point and at high density the terms range over many orders of magnitude; that underflow, cancellation or double rounding never makes the ratio cp/cv smaller than one is a statement about every pair of stored numbers.", "anchors": ["src/detail.rs: properties", "src/gerg2008.rs: properties"]}
{"id": "C84", "title": "Refuted: a reading that is NaN is reported", "statement": "One would expect that a composition with a NaN, as a failed analyzer gives it, is rejected, or at least that density() fails. Neither holds in IEEE-754 arithmetic. Every composition with a NaN is accepted by check() and by set_composition() of both models; only normalize() reports it (Err(Empty), nothing changed). And a DETAIL object that has evaluated a gas goes on metering that gas: as long as each sample differs from the one before only by fractions that are NaN in one of the two, density() reports success at every temperature and pressure where it would for the old gas, with the old gas's density and compressibility factor bit for bit. So after one sample of NaN the next good composition, whatever it is, is metered as the old gas.", "quantifier": "every composition with a NaN, every object, every number of samples with any temperatures and pressures", "why_tests_cant": "A test can show one NaN accepted. That no composition with a NaN is ever rejected, and that the object stays with the old gas through any number of samples, are statements about all inputs and histories.", "anchors": ["src/composition.rs: check, normalize", "src/detail.rs: x_terms, pressure, density, set_composition", "src/gerg2008.rs: set_composition"]}
{"id": "C85", "title": "Searches that start from an estimate, and tracking without accumulated error", "statement": "A negative density field is taken by density() as an estimate. For every natural gas (C74) at 263 K to 400 K and every estimate from 3e-4 mol/l to 0.66 mol/l within the factor exp(0.095) of the density of the equation, density() of DETAIL in IEEE-754 arithmetic reports success and its result is within the factor exp(7.2e-8) of that density. Consequently an object that is given minus the density found last as the next estimate, for any number of samples whose pressure changes by at most 5 % and whose temperature by at most 1 % from each to the next, finds every density to the same accuracy: errors do not accumulate. GERG-2008 likewise, for mixtures of any of its components at 1.1 times the reducing temperature or more: an estimate of at most 5 % of the reducing density (6 % from 1.25 times the reducing temperature) within the factor exp(0.054) of the density of the equation leads to a result within exp(9.7e-8) of it, and an object that follows pressures and temperatures whose logarithms change by at most 0.04 together in each step, the temperature counted 3.2 times (4 % in pressure alone, or 2 % in pressure and 0.6 % in temperature), each search starting from the density found last, finds every density to that accuracy.", "quantifier": "every natural gas composition, every temperature and pressure in the range, every estimate near the density, every number of samples", "why_tests_cant": "A test tries a few estimates or one run of samples. That no estimate in the range leads the iteration astray, and that the error after any number of samples is no larger than after the first, needs an induction.", "anchors": ["src/detail.rs: density, pressure, x_terms", "src/gerg2008.rs: density, pressure"]}
{"id": "C86", "title": "Heating a gas mixture raises its energies and entropy, compressing it lowers the entropy", "statement": "In IEEE-754 arithmetic, for every mixture of the 21 components with fractions summing to 0.99 to 1.01 and every density from 1e-4 mol/l up to a tenth of the reducing density, and any two temperatures at least 0.01 K apart from 200 K and 1.1 times the reducing temperature on and up to 1000 K, the internal energy, enthalpy and entropy that properties() of GERG-2008 stores are larger at the higher temperature, by at least 6.9 J/mol, 15 J/mol and 0.006 J/(mol K) for each kelvin. At one temperature and two densities D < D' at least 0.001 % apart, the stored entropy is smaller at the higher density, by at least 3 ln(D'/D) J/(mol K). With DETAIL the same holds for every normal-gas composition with fractions summing to at least 0.99, temperatures at least 0.01 K apart within 263 K to 400 K and densities of 1e-4 mol/l to 1 mol/l: the rises per kelvin are at least 5.4 J/mol, 10 J/mol and 0.018 J/(mol K), and for densities at least 0.002 % apart the entropy falls by at least 2 ln(D'/D) J/(mol K).", "quantifier": "every composition, density and pair of temperatures, and every composition, temperature and pair of densities, in the range", "why_tests_cant": "A test compares a few pairs of states. That the order of no pair is reversed, by the equation or by rounding errors, needs a bound of the slopes over the whole range of states and compositions and a bound of the rounding errors.", "anchors": ["src/gerg2008.rs: properties, alpha0, alphar, reducingparameters", "src/detail.rs: properties, alpha0_detail, alphar"]}
{"id": "C87", "title": "Compressing a gas at constant temperature raises its Gibbs energy", "statement": "In IEEE-754 arithmetic, at one temperature and for two densities D < D' at least 0.01 % apart, the Gibbs energy that properties() stores is larger at the higher density. With GERG-2008 this holds for every mixture of the 21 components with fractions summing to 0.99 to 1.01, from 200 K and 1.1 times the reducing temperature on and up to 1000 K, and from 1e-4 mol/l up to a tenth of the reducing density, and the rise is at least 600 ln(D'/D) J/mol. With DETAIL it holds for every normal-gas composition with fractions summing to at least 0.99, 263 K to 400 K and 1e-4 mol/l to 1 mol/l, and the rise is at least 1100 ln(D'/D) J/mol.", "quantifier": "every composition, temperature and pair of densities in the range", "why_tests_cant": "A test compares a few pairs of states. That the order of no pair is reversed, by the equation or by rounding errors, needs a bound of the slope over the whole range of states and compositions and a bound of the rounding errors.", "anchors": ["src/gerg2008.rs: properties, alpha0, alphar, reducingparameters", "src/detail.rs: properties, alpha0_detail, alphar"]}
{"id": "C88", "title": "At base conditions the two models give the same density within 1 %", "statement": "In IEEE-754 arithmetic, give a new DETAIL and a new GERG-2008 calculator the same normal-gas composition, the same temperature of 263 K to 400 K and 1.1 to 2.5 times the GERG-2008 reducing temperature of the gas, and the same pressure, with an ideal-gas density p/(RT) of 3e-4 mol/l to 0.05 mol/l and of at most 0.005 times the reducing density, as at the base conditions of gas metering. Then density() succeeds on both and the two densities differ by at most 1 %. Also, for every number type, set_composition of one composition on both calculators gives the same verdict: the same error with both unchanged, or success with the same mole fractions in both.", "quantifier": "every natural gas composition, temperature and pressure in the range", "why_tests_cant": "A test compares the two models for a few gases. That two equations with different coefficients, each solved by its own iteration in f64, never drift apart over a continuum of compositions needs bounds of both equations over the whole range.", "anchors": ["src/detail.rs: density, pressure, alphar", "src/gerg2008.rs: density, pressure, alphar, reducingparameters"]}
