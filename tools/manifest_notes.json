{
 "C01": [
  "proved",
  "Any arithmetic, and restated over the reals."
 ],
 "C02": [
  "proved",
  "Over the reals an equivalence; in f64 sound for non-negative finite fractions, and two findings: any NaN fraction is accepted, and a composition of finite fractions summing to 6 is accepted."
 ],
 "C03": [
  "proved",
  "Exact arithmetic; the scaling itself in any arithmetic."
 ],
 "C04": [
  "proved",
  "Any arithmetic, and restated over the reals."
 ],
 "C05": [
  "proved",
  "Exact arithmetic."
 ],
 "C06": [
  "proved",
  "Any arithmetic."
 ],
 "C07": [
  "proved",
  "Any arithmetic."
 ],
 "C08": [
  "proved",
  "Exact arithmetic; component masses checked against chemical formulas. In f64: both models' molar mass is within 1e-14 relative of the weighted sum (C08_*_molar_mass_f64)."
 ],
 "C09": [
  "proved",
  "Any arithmetic, so IEEE with NaN and infinities included."
 ],
 "C10": [
  "proved",
  "Any arithmetic, so IEEE with NaN and infinities included."
 ],
 "C11": [
  "proved",
  "Any arithmetic."
 ],
 "C12": [
  "proved",
  "Any arithmetic."
 ],
 "C13": [
  "proved",
  "Any arithmetic."
 ],
 "C14": [
  "proved",
  "Any arithmetic."
 ],
 "C15": [
  "proved",
  "Any arithmetic."
 ],
 "C16": [
  "proved",
  "Any arithmetic in which |a-a|>1e-7 is false; restated over the reals."
 ],
 "C17": [
  "proved",
  "Error contract in any arithmetic; success contract in any arithmetic in which |a-a|>1e-7 is false."
 ],
 "C18": [
  "proved",
  "A refutation, for every state and flag > 0, in any arithmetic."
 ],
 "C19": [
  "proved",
  "Any arithmetic in which |a-a|>1e-7 is false."
 ],
 "C20": [
  "proved",
  "A refutation: in general form (any target temperature and composition) and with a numerical witness. The true part is C19."
 ],
 "C22": [
  "proved",
  "Any arithmetic in which |a-a|>1e-7 is false."
 ],
 "C24": [
  "proved",
  "Any arithmetic in which |a-a|>1e-7 is false."
 ],
 "C25": [
  "proved",
  "Exact arithmetic."
 ],
 "C26": [
  "proved",
  "Exact arithmetic, new objects, T > 1e-7."
 ],
 "C27": [
  "proved",
  "Exact arithmetic."
 ],
 "C28": [
  "proved",
  "Exact arithmetic."
 ],
 "C29": [
  "proved",
  "Exact arithmetic, every object reachable by API calls."
 ],
 "C30": [
  "proved",
  "Exact arithmetic, freshly evaluated objects."
 ],
 "C31": [
  "proved",
  "Exact arithmetic."
 ],
 "C32": [
  "proved",
  "Exact arithmetic."
 ],
 "C33": [
  "proved",
  "Both models, exact arithmetic. GERG on every object reachable by API calls."
 ],
 "C34": [
  "proved",
  "Both models, exact arithmetic. GERG on every object reachable by API calls."
 ],
 "C35": [
  "proved",
  "Both models, exact arithmetic."
 ],
 "C36": [
  "proved",
  "Both models; sign in exact arithmetic, clamp in any arithmetic. GERG on every object reachable by API calls."
 ],
 "C37": [
  "proved",
  "Both models, exact arithmetic."
 ],
 "C40": [
  "proved",
  "Any arithmetic."
 ],
 "C42": [
  "proved",
  "A refutation of both halves; C42_accepted_is_physical_partial is the part that holds."
 ],
 "C43": [
  "proved",
  "Exact arithmetic, new objects, T > 1e-7. Form of the equation, with the crate's constants. The *_constants_frozen theorems compare with a copy generated from the crate: regression only."
 ],
 "C45": [
  "proved",
  "Any arithmetic."
 ],
 "C46": [
  "proved",
  "Any arithmetic."
 ],
 "C39": [
  "proved",
  "Pure fluids in exact arithmetic on new objects; reducing constants and departure pairs for every pair of components. All numbers, including the reference lists, are the crate's: internal consistency, not agreement with the publication."
 ],
 "C44": [
  "proved",
  "Exact arithmetic, new objects, T > 1e-7, some fraction at least 1e-6. Form of the equation, with the crate's constants (Spec/GergTables and GergBinary were generated from the crate)."
 ],
 "C23": [
  "proved",
  "A refutation: in general form (temperature and composition; with departure functions, composition only) and with a numerical witness. The true part is C22."
 ],
 "C41": [
  "proved",
  "Model of f64: the Float logical model of Lean core. The boundary finding (tiny sums) is proved too."
 ],
 "C21": [
  "proved",
  "Refuted. For every math library, Z is exactly 1 or NaN after a NaN temperature or composition, so it differs from that of a new object wherever that one is a number other than 1. Kernel-checked complete runs with a concrete math library: methane at 300 K and 5 mol/l has Z about 0.85 on a new object and exactly 1 after a NaN temperature or composition."
 ],
 "C38": [
  "proved",
  "Handles are addresses, memory a map from addresses to objects; the allocator's choice is an argument. Valid references for the composition and error out-parameters are assumed, memory exhaustion is not modelled. C38_gerg_properties_keep_pressure records that gerg_calculate_properties discards the pressure."
 ],
 "C47": [
  "proved",
  "Exact arithmetic, new objects, T > 1e-7, D > 1e-15. Form of the equation, with the crate's constants; the ideal-gas list is the crate's GERG-2008 one."
 ],
 "C48": [
  "proved",
  "Lean's Float logical model; the domain of ln (and of exp for the density's sign) is a hypothesis on the math library, met by a witness library."
 ],
 "C49": [
  "proved",
  "Real arithmetic. Newton's method on log P against log V with slopes varying by at most 40 per cent contracts by 0.4 per round, so 19 rounds suffice; GERG-2008 restarts in round 20 and is covered before that. Worked cases: methane at 605 K and 1 kPa (DETAIL), hot methane near 1 mol/l (GERG-2008). Not covered: starts far from the root, GERG-2008 restarts, positive flags, rounding."
 ],
 "C50": [
  "proved",
  "Exact arithmetic, each state on a new object (by C19/C24 any object whose inputs were moved by more than the tolerance behaves the same). Needs the fractions the equations read to add up to one."
 ],
 "C51": [
  "proved",
  "Exact arithmetic, new objects. The density bound depends on composition and temperature and is not given as a number."
 ],
 "C52": [
  "proved",
  "Refuted: frozen temperature for every math library and every history, for compositions without departure functions; kernel-checked complete runs with a concrete math library for methane and ethane."
 ],
 "C53": [
  "proved",
  "Any arithmetic (no law used), by induction over histories with a relation on objects that forgets the result fields."
 ],
 "C54": [
  "proved",
  "A posteriori: needs only that the call returned Ok, not the convergence conditions of C49. The window is of relative width 2e-7 or so, where M/m is close to one for any smooth isotherm."
 ],
 "C55": [
  "proved",
  "The invariance under scaling is refuted by a witness; the scaling law of the molar mass and the 1 % bound are proved for every accepted composition, over the reals."
 ],
 "C56": [
  "proved",
  "Over the reals. Residual contributions vanish at zero density for every history, and the ideal-gas coefficient tables of the two models hold the same numbers (kernel-checked over the whole table). Entropies and the speed of sound are not compared."
 ],
 "C57": [
  "proved",
  "New objects only: on used objects the 1e-7 caching windows make results jump, see C23 and C36. At the 1e-15 cut-off of GERG-2008 components and at density 1e-15 nothing is claimed."
 ],
 "C58": [
  "proved",
  "Both models. The limit, the slope of dp_dd and the zero value of d2p_dd2 are proved for all compositions and temperatures; the derivative claim at zero density is refuted by pure methane at 151.3183 K (DETAIL) and 190.564 K (GERG-2008)."
 ],
 "C59": [
  "proved",
  "IEEE-754 arithmetic, by propagating a relative error through every operation of setup, x_terms, alphar, pressure and properties. The math library is any one meeting Spec/F64Accuracy; one is shown to exist. The error is relative to the sum of absolute values of the terms (Spec/DetailError), which near the two-phase region can be much larger than z. For new objects; C19 carries it to histories."
 ],
 "C60": [
  "proved",
  "For new objects. The reference is the equation of Spec/GergEos over the reals (an equation written from knowledge of the publication, with the crate's coefficients); the size of its terms and the input range are in Spec/GergError. The only facts assumed about the library are LibmAccurate and LnAccurate (Spec/F64Accuracy), met by a library that rounds the exact value."
 ],
 "C61": [
  "proved",
  "For new objects. The slope hypothesis is about the real equation; C62 meets it for all mixtures at low pressure. The density range of the result is a hypothesis. Library assumptions: LibmAccurate and LnAccurate."
 ],
 "C62": [
  "proved",
  "For new objects. The f64 counterpart of C49. Library assumptions: LibmAccurate and LnAccurate."
 ],
 "C63": [
  "proved",
  "For new objects. The slope hypothesis is about the real equation; C64 meets it for methane at low pressure. The density range of the result is a hypothesis. Library assumptions: LibmAccurate and LnAccurate."
 ],
 "C64": [
  "proved",
  "For new objects. The f64 counterpart of C49. Library assumptions: LibmAccurate and LnAccurate."
 ],
 "C65": [
  "proved",
  "For new objects. Library assumptions: LibmAccurate and LnAccurate. The sizes of the terms are defined in Spec/DetailEnergyError."
 ],
 "C66": [
  "proved",
  "For new objects. Library assumptions: LibmAccurate and LnAccurate. The sizes of the terms are defined in Spec/GergEnergyError."
 ],
 "C67": [
  "proved",
  "For new objects. Library assumptions: LibmAccurate and LnAccurate. The condition is Eos.Conditioned / GergEos.Conditioned in Spec/CondError; C67_gerg_gas and C67_detail_methane prove it for gases at low density."
 ],
 "C68": [
  "proved",
  "For new objects. Library assumptions: LibmAccurate and LnAccurate."
 ],
 "C69": [
  "proved",
  "For new objects. Library assumptions: LibmAccurate and LnAccurate."
 ],
 "C70": [
  "proved",
  "First two calls on a new object. Library assumptions: LibmAccurate and LnAccurate."
 ],
 "C71": [
  "proved",
  "f64 part on a new object, with LibmAccurate and LnAccurate."
 ],
 "C72": [
  "proved",
  "On a new object, with LibmAccurate and LnAccurate; iflag <= 0."
 ],
 "C73": [
  "proved",
  "The sizes of the terms are defined in Spec/DetailCurvature and Spec/GergCurvature. The mixed derivative of DETAIL is not included: the code always stores zero there (see the DETAIL theorems on d2p_dtd)."
 ],
 "C74": [
  "proved",
  "On a new object, with LibmAccurate and LnAccurate. The limits of the compositions are in Spec/NormalGas; they follow the normal range of AGA Report No. 8 as far as it is known here. The pressure range is the proof's, not the report's."
 ],
 "C75": [
  "proved",
  "On a new object, with LibmAccurate and LnAccurate. The limits of the compositions are in Spec/NormalGas."
 ],
 "C76": [
  "proved",
  "f64 arithmetic with LibmAccurate and LnAccurate as in C59 and C64. Changes of more than zero and at most 1e-7 are outside the theorem: C20 shows that they are not noticed."
 ],
 "C77": [
  "proved",
  "f64 arithmetic with LibmAccurate and LnAccurate as in C60 and C62."
 ],
 "C78": [
  "proved",
  "f64 arithmetic with LibmAccurate and LnAccurate as in C60 and C62. Single-threaded C calls, as in C38. That well-behaved programs run is C38_well_behaved_program_runs."
 ],
 "C79": [
  "proved",
  "Density readings of one object follow pressure and temperature, with explicit rates, for every pair of samples of the same gas."
 ],
 "C80": [
  "proved",
  "Detail in f64 by C59 and C74, GERG-2008 by C60 and C72, with the slope of the exact pressure. On the same object, so the cached coefficients of the first call are used in the second."
 ],
 "C81": [
  "proved",
  "In f64. The ranges are what interval bounds over all natural gases (GERG-2008: all mixtures) give; they are wider than the values of any one gas, the upper ones much wider. GERG-2008 states the speed of sound relative to sqrt(R T / M)."
 ],
 "C82": [
  "proved",
  "The region is stated for every composition within one part in 1e14 of the exact fractions, so a gas exactly at a limit of the region is left out. The accuracy is against the equation at the fractions stored. As in C76, a change of composition or temperature from one sample to the next must be noticeable (more than 1e-7)."
 ],
 "C83": [
  "proved",
  "No accuracy of the math library is used in the first two theorems, only the order of the f64 operations. A stored cp that is infinite or NaN is left out."
 ],
 "C84": [
  "proved",
  "A refutation: the theorems prove that the expected property fails, for every input described, and what happens instead. The freeze is proved for density() of DETAIL; properties() also uses the fractions directly and is not covered. For a new object see C21, for GERG-2008 see C52."
 ],
 "C85": [
  "proved",
  "Both models. Assumes an accurate math library (LibmAccurate, LnAccurate), which idealLibm_accurate and idealLibm_ln show can be met. The range of ideal-gas densities for tracking with DETAIL is 3.5e-4 to 0.59 mol/l. A temperature that changes must change by more than 1.01e-7 K (smaller changes are not noticed, C20)."
 ],
 "C86": [
  "proved",
  "Both models: C86_detail_* for DETAIL and C86_gerg_* for GERG-2008. Assumes an accurate math library (LibmAccurate, LnAccurate), which idealLibm_accurate and idealLibm_ln show can be met. Both objects are new ones."
 ],
 "C87": [
  "proved",
  "Both models. Assumes an accurate math library (LibmAccurate, LnAccurate), which idealLibm_accurate and idealLibm_ln show can be met. Both objects are new ones."
 ],
 "C88": [
  "proved",
  "Assumes an accurate math library (LibmAccurate, LnAccurate), which idealLibm_accurate and idealLibm_ln show can be met. Both objects are new ones. The bound on the reducing density and the range of the reducing temperature are hypotheses on the composition."
 ]
}