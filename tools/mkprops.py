#!/usr/bin/env python3
"""Writes /verif/properties.jsonl (kept as a script so that the list can grow without hand-editing JSON)."""
import json
P=[]
def p(id,title,statement,quantifier,why,anchors):
    P.append(dict(id=id,title=title,statement=statement,quantifier=quantifier,why_tests_cant=why,anchors=anchors))

p("C01","check() verdict is exactly the documented decision",
"Composition::check returns Err(Empty) exactly when the magnitude of the component sum is below 1e-10, otherwise Err(BadSum) exactly when the sum differs from 1 by more than 0.01, otherwise Ok; the verdict depends on nothing but the sum.",
"every composition (all 21 components arbitrary, any arithmetic for the decision shape, all reals for the numeric reading)",
"The input space is 21 independent floats; the boundaries 1e-10 and 0.01 can only be sampled by tests.",
["src/composition.rs: Composition::check, Composition::sum"])
p("C02","An accepted composition sums to one within 1 %",
"If check() accepts a composition then its 21 fractions sum to 1 within 0.01 (and a rejected one does not); in IEEE arithmetic this breaks exactly on NaN: any composition containing a NaN is accepted.",
"every composition; every f64 bit pattern for the NaN part",
"Acceptance must be sound for all inputs including NaN; unit tests sample three compositions.",
["src/composition.rs: Composition::check", "src/detail.rs: Detail::set_composition", "src/gerg2008.rs: Gerg2008::set_composition"])
p("C03","normalize() makes fractions that sum to one and keeps proportions",
"If the component sum is positive, normalize() returns Ok, afterwards every component is the old component divided by the old sum, the components sum to exactly 1 (exact arithmetic) and the ratio of any two components is unchanged.",
"every composition with positive sum",
"A law over all real compositions; tests check two examples.",
["src/composition.rs: Composition::normalize"])
p("C04","normalize() fails atomically",
"normalize() returns Err(Empty) exactly when the sum is not greater than zero, and in that case no component is modified; it never returns BadSum.",
"every composition, any arithmetic (including NaN sums)",
"Atomicity must hold on every failing input, including NaN and negative sums.",
["src/composition.rs: Composition::normalize"])
p("C05","normalize() is idempotent and its output is accepted",
"After a successful normalize(), check() returns Ok, set_composition on both equations of state accepts the composition, and a second normalize() succeeds and changes nothing.",
"every composition with positive sum",
"Composition of two operations for all inputs.",
["src/composition.rs: Composition::normalize, Composition::check", "src/detail.rs: Detail::set_composition", "src/gerg2008.rs: Gerg2008::set_composition"])
p("C06","DETAIL set_composition is atomic and puts every component in its slot",
"Detail::set_composition either rejects the composition with check()'s error and leaves the whole object untouched, or returns Ok, stores each named component at its own index of x and changes no other field.",
"every object state and every composition, any arithmetic",
"21 slots times all prior states; a swapped pair of slots or a partial write on the error path is invisible to example tests with tolerance.",
["src/detail.rs: Detail::set_composition", "src/composition.rs: Composition::check"])
p("C07","GERG set_composition is atomic and puts every component in its slot",
"Gerg2008::set_composition either rejects with check()'s error leaving the object untouched, or returns Ok, clears slot 0, stores each named component at its own 1-based slot and changes no other field.",
"every object state and every composition, any arithmetic",
"Same as C06 with the 1-based layout.",
["src/gerg2008.rs: Gerg2008::set_composition"])
p("C08","Molar mass is the mole-fraction weighted mean",
"molar_mass() sets mm to the sum of fraction times pure-component molar mass, for each named component, changes nothing else, agrees between the stored field and (DETAIL) the returned value, and for non-negative fractions summing to one lies between the lightest and heaviest component mass; the two models agree within 0.005 g/mol.",
"every object state and composition",
"A bound over the whole composition simplex.",
["src/detail.rs: Detail::molar_mass, MMI", "src/gerg2008.rs: Gerg2008::molar_mass, MMI_GERG"])
p("C09","DETAIL never panics",
"No sequence of constructor, field writes, set_composition, molar_mass, pressure, density and properties calls on a Detail panics (no out-of-bounds index), whatever values are supplied, NaN and infinities included.",
"every finite history of public API calls, every argument value, any arithmetic",
"Panic freedom quantifies over all histories and all float values.",
["src/detail.rs: Detail::alphar, BN, KN, Detail::x_terms, Detail::alpha0_detail"])
p("C10","GERG never panics",
"No sequence of public API calls on a Gerg2008 panics, whatever values are supplied; in particular every exponent read from the parameter tables is a valid index of the power tables.",
"every finite history of public API calls, every argument value, any arithmetic",
"The indices are data (coik, doik, dijk, MNUMB...), so one bad table entry for one rare component pair would panic only for compositions that contain it.",
["src/gerg2008.rs: Gerg2008::setup, Gerg2008::alphar, Gerg2008::tterms, KPOL, KEXP, KPOLIJ, KEXPIJ, MNUMB"])
p("C11","DETAIL pressure() only computes",
"Detail::pressure() leaves t, p, d, x and every public result field except z unchanged, and returns d*R*t*z for the z it stores.",
"every object state, any arithmetic",
"A frame condition over all states.",
["src/detail.rs: Detail::pressure"])
p("C12","DETAIL density() only touches d and z",
"Detail::density() leaves t, p, x and every public field other than d and z unchanged, whether it succeeds or fails.",
"every object state, any arithmetic",
"A frame condition over all states and both outcomes.",
["src/detail.rs: Detail::density"])
p("C13","DETAIL properties() keeps the state point",
"Detail::properties() leaves t, d and x unchanged and overwrites p with the equation-of-state pressure d*R*t*z; d2p_dtd is always reset to zero.",
"every object state, any arithmetic",
"A frame condition over all states.",
["src/detail.rs: Detail::properties"])
p("C14","GERG calls keep their inputs",
"Gerg2008::pressure() changes no public field but z; density(iflag<=0) changes none but d and z; density with any iflag keeps t, p, x; properties() keeps t, p, d, x and returns d*R*t*z.",
"every object state and flag, any arithmetic",
"Frame conditions over all states.",
["src/gerg2008.rs: Gerg2008::pressure, Gerg2008::density, Gerg2008::properties"])
p("C15","DETAIL density() error contract",
"Detail::density() returns PressureTooLow exactly when |p|<1e-15 and then d is 0; when it returns IterationFail the stored density is the ideal-gas density p/R/t; those are the only errors.",
"every object state, any arithmetic",
"The error path must restore the ideal gas density after any number of iterations from any start.",
["src/detail.rs: Detail::density", "src/lib.rs: DensityError"])
p("C16","DETAIL density() success contract",
"When Detail::density() returns Ok there is a last evaluated density e such that the equation of state at (t,e,x) had dP/dD>=1e-15 and P>=1e-15, the last Newton correction in log-volume was below 1e-7 in magnitude, and the returned d is exp of minus the corrected log-volume; over the reals d is positive, bounded by exp(7+1e-7), and the pressure at e matches the requested pressure to 1e-7*e*(dP/dD)/P in log terms.",
"every object state for which density() succeeds",
"Convergence quality must hold at every state point, not the sampled ones.",
["src/detail.rs: Detail::density, Detail::pressure"])
p("C17","GERG density() contract without two-phase check",
"Gerg2008::density(iflag<=0): on IterationFail the stored density is p/R/t; PressureTooLow is never returned; on Ok the same convergence contract as C16 holds.",
"every object state and every iflag<=0, any arithmetic",
"All states, up to 50 iterations with three restarts.",
["src/gerg2008.rs: Gerg2008::density"])
p("C18","GERG density() can succeed when the two-phase check is requested",
"A caller passing iflag>0 relies on Ok being possible for a converged single-phase state. (Finding: false of the code. For every state and every iflag>0 the call returns Err(IterationFail), even when the iteration converged and all stability checks pass; only the stored density tells the cases apart.)",
"every object state, every iflag>0, any arithmetic",
"Claim about every state: no test can show that no state succeeds.",
["src/gerg2008.rs: Gerg2008::density"])
p("C19","DETAIL results do not depend on history",
"In every history in which each evaluated (composition, temperature) is either identical to the previously evaluated one or differs by more than 1e-7 in some component (and in temperature), every pressure()/density()/properties() call gives exactly the result a freshly constructed object gives for the same inputs.",
"every finite history of public API calls satisfying the side condition, any arithmetic",
"Cache coherence over all histories.",
["src/detail.rs: Detail::x_terms, Detail::alphar, xold, told"])
p("C20","DETAIL results do not depend on history, small changes included",
"Without the side condition of C19: a call's result is that of a fresh object. (Finding: false of the code. The previous-value caches are overwritten even when the change was too small to trigger recomputation, so a sequence of steps of at most 1e-7 moves temperature or composition arbitrarily far while pressure() keeps using the terms of the starting point.)",
"every history; the refutation ranges over every pair of temperatures / compositions",
"The failing histories have millions of steps for a visible effect; only an inductive argument covers them.",
["src/detail.rs: Detail::x_terms, Detail::alphar"])
p("C21","A NaN input does not poison later DETAIL results",
"After a NaN temperature or composition was evaluated, setting valid inputs again gives valid results. (Finding: false of the code in IEEE arithmetic. The comparison with the remembered NaN is never 'changed', so on a new object the next valid state is silently evaluated as an ideal gas, Z=1, and stays so while the inputs are kept.)",
"every f64 NaN-containing composition accepted by set_composition, every valid follow-up state",
"Needs exact IEEE semantics over all follow-up values.",
["src/detail.rs: Detail::x_terms, Detail::alphar", "src/composition.rs: Composition::check"])
p("C22","GERG results do not depend on history",
"In every history in which each evaluated (composition, temperature) is either identical to the previously evaluated one or detectably different, every GERG pressure()/density()/properties() call gives exactly the result a freshly constructed object gives for the same inputs.",
"every finite history of public API calls satisfying the side condition, any arithmetic",
"GERG keeps two layers of caches (reducing parameters, temperature powers) that are only partially recomputed.",
["src/gerg2008.rs: Gerg2008::reducingparameters, Gerg2008::alphar, Gerg2008::tterms, drold, trold, told, trold2, xold, taup, taupijk"])
p("C23","GERG results do not depend on history, small changes included",
"As C20 for GERG. (Finding: false of the code for the same reason.)",
"every history; refutation over every pair of states connected by small steps",
"As C20.",
["src/gerg2008.rs: Gerg2008::reducingparameters, Gerg2008::alphar"])
p("C24","Repeating an evaluation changes nothing",
"Calling pressure() (or properties()) twice in a row gives the same result and leaves the object in the same state as calling it once, for both equations of state; calling density() again after a success returns the same density.",
"every object state, any arithmetic in which x-x is never larger than 1e-7",
"Idempotence over all states including partially cached ones.",
["src/detail.rs: Detail::pressure, Detail::properties, Detail::density", "src/gerg2008.rs: Gerg2008::pressure, Gerg2008::properties"])
p("C25","DETAIL density derivatives are derivatives of the returned pressure",
"For positive T and D: dp_dd is the partial derivative of pressure() with respect to density at fixed T and x, and d2p_dd2 is the second partial derivative.",
"all compositions, all T>0, all D>0 (above the code's 1e-15 cut-off), exact real arithmetic",
"An identity between functions; finite differences at sampled points cannot settle it.",
["src/detail.rs: Detail::properties, Detail::alphar, Detail::pressure"])
p("C26","DETAIL temperature derivatives are consistent",
"dp_dt is the partial derivative of pressure() with respect to T; s is minus the temperature derivative of the Helmholtz energy; cv is the temperature derivative of the internal energy u at constant density (and T times that of s).",
"all compositions, all T>0, all D>0, exact real arithmetic",
"As C25.",
["src/detail.rs: Detail::properties, Detail::alpha0_detail, Detail::alphar"])
p("C27","DETAIL energy identities",
"h = u + p/d, g = h - T*s, and u - T*s is the Helmholtz energy, at every state point; the same with p/d replaced by R*T in the zero-density branch.",
"every object state, exact real arithmetic",
"Identities over all states.",
["src/detail.rs: Detail::properties"])
p("C28","DETAIL heat capacity, speed of sound, Joule-Thomson and isentropic exponent relations",
"cp - cv = T*(dp_dt/d)^2/dp_dd; w^2 = 1000*(cp/cv)*dp_dd/mm when that is non-negative; jt = (T*dp_dt/(d*dp_dd) - 1)/(d*cp); kappa = w^2*mm/(1000*R*T*z).",
"every state with d above the cut-off, exact real arithmetic",
"Identities over all states.",
["src/detail.rs: Detail::properties"])
p("C29","GERG density derivatives are derivatives of the returned pressure",
"As C25 for Gerg2008.",
"all compositions, all T>0, all D>0, exact real arithmetic",
"As C25.",
["src/gerg2008.rs: Gerg2008::properties, Gerg2008::alphar, Gerg2008::pressure"])
p("C30","GERG temperature derivatives are consistent",
"dp_dt is the temperature derivative of pressure(), d2p_dtd the mixed second derivative, s minus the temperature derivative of the Helmholtz energy, cv the temperature derivative of u.",
"all compositions, all T>0, all D>0, exact real arithmetic",
"As C25.",
["src/gerg2008.rs: Gerg2008::properties, Gerg2008::alpha0, Gerg2008::alphar"])
p("C31","GERG energy identities",
"h = u + p/d, g = h - T*s at every state point with d>0.",
"every object state, exact real arithmetic",
"Identities over all states.",
["src/gerg2008.rs: Gerg2008::properties"])
p("C32","GERG heat capacity, speed of sound, Joule-Thomson and isentropic exponent relations",
"As C28 for Gerg2008.",
"every state with d above the cut-off, exact real arithmetic",
"Identities over all states.",
["src/gerg2008.rs: Gerg2008::properties"])
p("C33","Ideal-gas limit",
"At zero density both models give z = 1, p = 0, dp_dd = R*T, dp_dt = 0, cp - cv = R, d2p_dd2 = 0, jt = 1e20; and z tends to 1 as the density tends to zero at fixed T and x.",
"all compositions, all T>0, exact real arithmetic",
"A limit statement.",
["src/detail.rs: Detail::properties, Detail::pressure", "src/gerg2008.rs: Gerg2008::properties, Gerg2008::pressure"])
p("C34","pressure() and properties() agree",
"At the same state, the pressure and z produced by properties() equal those produced by pressure().",
"every object state, exact real arithmetic",
"Two code paths must agree on all inputs.",
["src/detail.rs: Detail::pressure, Detail::properties", "src/gerg2008.rs: Gerg2008::pressure, Gerg2008::properties"])
p("C35","density() recovers a density from its pressure",
"If p is the pressure the equation of state gives at (t,d0,x), dP/dD and P are at least 1e-15 there and the search starts at d0 (d = -d0), then density() returns Ok and the density is exactly d0, for both models.",
"all compositions, T, d0 with exp(-100)<=d0<=exp(7), exact real arithmetic",
"A round trip over a continuum of states.",
["src/detail.rs: Detail::density", "src/gerg2008.rs: Gerg2008::density"])
p("C36","Speed of sound is never negative and never the root of a negative number",
"After properties(), w >= 0, and when 1000*cp/cv*dp_dd/mm is negative both w and kappa are 0.",
"every object state, exact real arithmetic; the clamp for any arithmetic",
"All states, including two-phase states where dp_dd<0.",
["src/detail.rs: Detail::properties", "src/gerg2008.rs: Gerg2008::properties"])
p("C37","Newton steps go in the right direction",
"In the density iteration, at a mechanically stable point, the next density is larger than the current one exactly when the computed pressure is below the requested one, and unchanged exactly when it equals it.",
"all states with P,dP/dD>=1e-15, p>0, exact real arithmetic",
"All states.",
["src/detail.rs: Detail::density", "src/gerg2008.rs: Gerg2008::density"])
p("C38","The C interface mirrors the Rust API and handles do not interfere",
"For any sequence of FFI calls on any number of live handles, each handle behaves exactly like a Rust object receiving the corresponding method calls; calls on one handle never change another; freeing null is a no-op; error out-parameters are always written with the operation's outcome; a null handle aborts instead of reading memory.",
"every finite sequence of FFI calls over any number of handles",
"All interleavings of calls on all handles.",
["src/ffi.rs: aga8_*, gerg_*"])
p("C39","GERG short-form shortcut and pure-fluid reducing parameters are right",
"Sharing propane's exponents among the short-form fluids gives the same temperature terms as each fluid's own exponents; for a pure fluid the reducing density and temperature are its critical ones; every pair with a departure function has a non-zero departure weight and vice versa.",
"every component, every pair, every temperature; the pure-fluid part in exact real arithmetic up to the printed precision of the GVIJ table",
"All 21 fluids and 210 pairs; tests run two mixtures.",
["src/gerg2008.rs: Gerg2008::tterms, Gerg2008::setup, Gerg2008::reducingparameters, MNUMB, FIJ, GVIJ, GTIJ, BTIJ, DC, TC"])
p("C40","Absent components do not matter",
"DETAIL: the equation of state (z, pressure) depends only on the strictly positive fractions; replacing a zero fraction by any non-positive number changes no EOS term (although it changes mm). GERG: the same with threshold 1e-15.",
"every object state, any arithmetic",
"All subsets of absent components.",
["src/detail.rs: Detail::x_terms, Detail::alpha0_detail", "src/gerg2008.rs: Gerg2008::reducingparameters, Gerg2008::alphar"])
p("C41","normalize() in IEEE arithmetic",
"In f64 arithmetic normalize() on non-negative, finite components with a sum in the normal range yields a composition whose sum is 1 within a few ulps, which check() accepts. (Boundary finding: for subnormal sums the factor 1/sum overflows and normalize() returns Ok with infinite fractions.)",
"every f64 composition in the stated range",
"Rounding behaviour over all inputs.",
["src/composition.rs: Composition::normalize, Composition::sum"])
p("C42","An accepted composition is physically meaningful",
"A composition accepted by check() has all fractions non-negative, and Err(Empty) is only returned when all fractions are zero as documented. (Finding: both false of the code; negative fractions are accepted and cancelling fractions are reported Empty.)",
"every composition",
"Claims about every accepted input.",
["src/composition.rs: Composition::check, CompositionError::Empty"])
p("C43","DETAIL pressure is the AGA 8 equation of state",
"For a freshly evaluated state, pressure() is D*R*T*Z with Z the AGA 8 DETAIL expression written with the mixture parameters K, U, G, Q, F and the second virial coefficient double sum over component pairs.",
"all non-negative compositions, all T>0, all D>0, exact real arithmetic",
"Equality of functions: the loops, caches and half-sums of the code against the closed formula.",
["src/detail.rs: Detail::setup, Detail::x_terms, Detail::alphar, Detail::pressure"])
p("C44","GERG pressure is the GERG-2008 equation of state",
"For a freshly evaluated state, pressure() is D*R*T*(1+delta*d(alpha_r)/d(delta)) with alpha_r the GERG-2008 sum of pure-fluid and departure terms at the reduced density and inverse reduced temperature.",
"all non-negative compositions, all T>0, all D>0, exact real arithmetic",
"As C43.",
["src/gerg2008.rs: Gerg2008::alphar, Gerg2008::tterms, Gerg2008::reducingparameters, Gerg2008::pressure"])
p("C45","density() does a bounded amount of work",
"Detail::density() evaluates the equation of state at most 20 times, Gerg2008::density() at most 50 times plus one properties() call, restarting at most 3 times, for every input.",
"every object state, any arithmetic (NaN included)",
"Termination bound over all inputs.",
["src/detail.rs: Detail::density", "src/gerg2008.rs: Gerg2008::density"])
p("C46","A new object is clean",
"new() succeeds, two new objects are identical, all public inputs and results of a new object are zero, and no sequence of API calls ever changes the equation-of-state parameters of an object.",
"every finite history of API calls, any arithmetic",
"Invariant over all histories.",
["src/detail.rs: Detail::new, Detail::setup", "src/gerg2008.rs: Gerg2008::new, Gerg2008::setup"])
with open('/verif/properties.jsonl','w') as f:
    for o in P: f.write(json.dumps(o)+"\n")
print(len(P))
