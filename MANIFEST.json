{
 "claims": [
  {
   "property": "C01",
   "status": "proved",
   "theorems": [
    "Aga8.C01_check_depends_on_sum_only",
    "Aga8.C01_check_decision",
    "Aga8.C01_check_decision_real"
   ],
   "note": "Any arithmetic, and restated over the reals."
  },
  {
   "property": "C02",
   "status": "proved",
   "theorems": [
    "Aga8.C02_accepted_iff_sum_within_one_percent",
    "Aga8.C02_f64_nan_accepted",
    "Aga8.C02_f64_accepted",
    "Aga8.C02_f64_sound",
    "Aga8.C02_f64_cancelling_accepted"
   ],
   "note": "Over the reals an equivalence; in f64 sound for non-negative finite fractions, and two findings: any NaN fraction is accepted, and a composition of finite fractions summing to 6 is accepted."
  },
  {
   "property": "C03",
   "status": "proved",
   "theorems": [
    "Aga8.C03_normalize_scales",
    "Aga8.C03_normalize_real"
   ],
   "note": "Exact arithmetic; the scaling itself in any arithmetic."
  },
  {
   "property": "C04",
   "status": "proved",
   "theorems": [
    "Aga8.C04_normalize_atomic",
    "Aga8.C04_normalize_atomic_real"
   ],
   "note": "Any arithmetic, and restated over the reals."
  },
  {
   "property": "C05",
   "status": "proved",
   "theorems": [
    "Aga8.C05_normalize_idempotent",
    "Aga8.C05_normalized_accepted_by_both"
   ],
   "note": "Exact arithmetic."
  },
  {
   "property": "C06",
   "status": "proved",
   "theorems": [
    "Aga8.C06_detail_set_composition"
   ],
   "note": "Any arithmetic."
  },
  {
   "property": "C07",
   "status": "proved",
   "theorems": [
    "Aga8.C07_gerg_set_composition"
   ],
   "note": "Any arithmetic."
  },
  {
   "property": "C08",
   "status": "proved",
   "theorems": [
    "Aga8.C08_detail_molar_mass_f64",
    "Aga8.C08_gerg_molar_mass_f64",
    "Aga8.C08_detail_molar_mass",
    "Aga8.C08_gerg_molar_mass",
    "Aga8.C08_models_agree"
   ],
   "note": "Exact arithmetic; component masses checked against chemical formulas. In f64: both models' molar mass is within 1e-14 relative of the weighted sum (C08_*_molar_mass_f64)."
  },
  {
   "property": "C09",
   "status": "proved",
   "theorems": [
    "Aga8.C09_detail_never_panics"
   ],
   "note": "Any arithmetic, so IEEE with NaN and infinities included."
  },
  {
   "property": "C10",
   "status": "proved",
   "theorems": [
    "Aga8.C10_gerg_never_panics"
   ],
   "note": "Any arithmetic, so IEEE with NaN and infinities included."
  },
  {
   "property": "C11",
   "status": "proved",
   "theorems": [
    "Aga8.C11_detail_pressure_only_computes"
   ],
   "note": "Any arithmetic."
  },
  {
   "property": "C12",
   "status": "proved",
   "theorems": [
    "Aga8.C12_detail_density_frame"
   ],
   "note": "Any arithmetic."
  },
  {
   "property": "C13",
   "status": "proved",
   "theorems": [
    "Aga8.C13_detail_properties_frame"
   ],
   "note": "Any arithmetic."
  },
  {
   "property": "C14",
   "status": "proved",
   "theorems": [
    "Aga8.C14_gerg_pressure_only_computes",
    "Aga8.C14_gerg_density_frame",
    "Aga8.C14_gerg_density_keeps_inputs",
    "Aga8.C14_gerg_properties_frame"
   ],
   "note": "Any arithmetic."
  },
  {
   "property": "C15",
   "status": "proved",
   "theorems": [
    "Aga8.C15_detail_density_errors"
   ],
   "note": "Any arithmetic."
  },
  {
   "property": "C16",
   "status": "proved",
   "theorems": [
    "Aga8.C16_detail_density_success",
    "Aga8.C16_detail_density_success_real",
    "Aga8.C16_detail_density_success_f64"
   ],
   "note": "Any arithmetic in which |a-a|>1e-7 is false; restated over the reals."
  },
  {
   "property": "C17",
   "status": "proved",
   "theorems": [
    "Aga8.C17_gerg_density_errors",
    "Aga8.C17_gerg_density_success",
    "Aga8.C17_gerg_density_success_real"
   ],
   "note": "Error contract in any arithmetic; success contract in any arithmetic in which |a-a|>1e-7 is false."
  },
  {
   "property": "C18",
   "status": "proved",
   "theorems": [
    "Aga8.C18_gerg_two_phase_check_never_ok"
   ],
   "note": "A refutation, for every state and flag > 0, in any arithmetic."
  },
  {
   "property": "C19",
   "status": "proved",
   "theorems": [
    "Aga8.C19_detail_history_independent",
    "Aga8.C19_detail_history_independent_f64"
   ],
   "note": "Any arithmetic in which |a-a|>1e-7 is false."
  },
  {
   "property": "C20",
   "status": "proved",
   "theorems": [
    "Aga8.C20_detail_small_steps_never_recompute",
    "Aga8.C20_detail_history_dependent"
   ],
   "note": "A refutation: in general form (any target temperature and composition) and with a numerical witness. The true part is C19."
  },
  {
   "property": "C21",
   "status": "proved",
   "theorems": [
    "Aga8.C21_detail_nan_temperature_ideal_or_nan",
    "Aga8.C21_detail_nan_composition_ideal_or_nan",
    "Aga8.C21_detail_nan_composition_ideal",
    "Aga8.C21_detail_nan_temperature_refuted",
    "Aga8.C21_detail_nan_composition_refuted",
    "Aga8.C21_detail_nan_refuted"
   ],
   "note": "Refuted. For every math library, Z is exactly 1 or NaN after a NaN temperature or composition, so it differs from that of a new object wherever that one is a number other than 1. Kernel-checked complete runs with a concrete math library: methane at 300 K and 5 mol/l has Z about 0.85 on a new object and exactly 1 after a NaN temperature or composition."
  },
  {
   "property": "C22",
   "status": "proved",
   "theorems": [
    "Aga8.C22_gerg_history_independent_f64",
    "Aga8.C22_gerg_history_independent"
   ],
   "note": "Any arithmetic in which |a-a|>1e-7 is false."
  },
  {
   "property": "C23",
   "status": "proved",
   "theorems": [
    "Aga8.C23_gerg_small_steps_never_recompute",
    "Aga8.C23_gerg_history_dependent"
   ],
   "note": "A refutation: in general form (temperature and composition; with departure functions, composition only) and with a numerical witness. The true part is C22."
  },
  {
   "property": "C24",
   "status": "proved",
   "theorems": [
    "Aga8.C24_detail_pressure_repeatable",
    "Aga8.C24_detail_properties_repeatable",
    "Aga8.C24_detail_density_repeatable",
    "Aga8.C24_detail_repeatable_f64",
    "Aga8.C24_gerg_repeatable_f64",
    "Aga8.C24_detail_density_repeatable_f64",
    "Aga8.C24_gerg_pressure_repeatable",
    "Aga8.C24_gerg_properties_repeatable",
    "Aga8.C24_gerg_density_repeatable"
   ],
   "note": "Any arithmetic in which |a-a|>1e-7 is false."
  },
  {
   "property": "C25",
   "status": "proved",
   "theorems": [
    "Aga8.C25_detail_dp_dd",
    "Aga8.C25_detail_d2p_dd2"
   ],
   "note": "Exact arithmetic."
  },
  {
   "property": "C26",
   "status": "proved",
   "theorems": [
    "Aga8.C26_detail_dp_dt",
    "Aga8.C26_detail_entropy_and_cv"
   ],
   "note": "Exact arithmetic, new objects, T > 1e-7."
  },
  {
   "property": "C27",
   "status": "proved",
   "theorems": [
    "Aga8.C27_detail_energy_identities",
    "Aga8.C27_detail_helmholtz"
   ],
   "note": "Exact arithmetic."
  },
  {
   "property": "C28",
   "status": "proved",
   "theorems": [
    "Aga8.C28_detail_derived_properties"
   ],
   "note": "Exact arithmetic."
  },
  {
   "property": "C29",
   "status": "proved",
   "theorems": [
    "Aga8.C29_gerg_dp_dd",
    "Aga8.C29_gerg_d2p_dd2"
   ],
   "note": "Exact arithmetic, every object reachable by API calls."
  },
  {
   "property": "C30",
   "status": "proved",
   "theorems": [
    "Aga8.C30_gerg_dp_dt",
    "Aga8.C30_gerg_d2p_dtd",
    "Aga8.C30_gerg_entropy_and_cv"
   ],
   "note": "Exact arithmetic, freshly evaluated objects."
  },
  {
   "property": "C31",
   "status": "proved",
   "theorems": [
    "Aga8.C31_gerg_energy_identities",
    "Aga8.C31_gerg_helmholtz"
   ],
   "note": "Exact arithmetic."
  },
  {
   "property": "C32",
   "status": "proved",
   "theorems": [
    "Aga8.C32_gerg_derived_properties"
   ],
   "note": "Exact arithmetic."
  },
  {
   "property": "C33",
   "status": "proved",
   "theorems": [
    "Aga8.C33_detail_zero_density",
    "Aga8.C33_detail_ideal_gas_limit",
    "Aga8.C33_gerg_zero_density",
    "Aga8.C33_gerg_ideal_gas_limit"
   ],
   "note": "Both models, exact arithmetic. GERG on every object reachable by API calls."
  },
  {
   "property": "C34",
   "status": "proved",
   "theorems": [
    "Aga8.C34_detail_pressure_properties_agree",
    "Aga8.C34_gerg_pressure_properties_agree"
   ],
   "note": "Both models, exact arithmetic. GERG on every object reachable by API calls."
  },
  {
   "property": "C35",
   "status": "proved",
   "theorems": [
    "Aga8.C35_detail_density_recovers",
    "Aga8.C35_gerg_density_recovers"
   ],
   "note": "Both models, exact arithmetic."
  },
  {
   "property": "C36",
   "status": "proved",
   "theorems": [
    "Aga8.C36_detail_clamp",
    "Aga8.C36_gerg_clamp",
    "Aga8.C36_detail_speed_of_sound",
    "Aga8.C36_gerg_speed_of_sound"
   ],
   "note": "Both models; sign in exact arithmetic, clamp in any arithmetic. GERG on every object reachable by API calls."
  },
  {
   "property": "C37",
   "status": "proved",
   "theorems": [
    "Aga8.C37_detail_newton_direction",
    "Aga8.C37_gerg_newton_direction"
   ],
   "note": "Both models, exact arithmetic."
  },
  {
   "property": "C38",
   "status": "proved",
   "theorems": [
    "Aga8.C38_detail_handle_is_rust_object",
    "Aga8.C38_gerg_handle_is_rust_object",
    "Aga8.C38_objects_have_rust_histories",
    "Aga8.C38_handles_do_not_interfere",
    "Aga8.C38_free_null",
    "Aga8.C38_null_handle_aborts",
    "Aga8.C38_composition_error_is_verdict",
    "Aga8.C38_density_error_is_outcome",
    "Aga8.C38_well_behaved_program_runs",
    "Aga8.C38_dead_handle_undefined",
    "Aga8.C38_gerg_properties_keep_pressure"
   ],
   "note": "Handles are addresses, memory a map from addresses to objects; the allocator's choice is an argument. Valid references for the composition and error out-parameters are assumed, memory exhaustion is not modelled. C38_gerg_properties_keep_pressure records that gerg_calculate_properties discards the pressure."
  },
  {
   "property": "C39",
   "status": "proved",
   "theorems": [
    "Aga8.C39_gerg_pure_fluid",
    "Aga8.C39_gerg_reducing_constants",
    "Aga8.C39_gerg_departure_pairs"
   ],
   "note": "Pure fluids in exact arithmetic on new objects; reducing constants and departure pairs for every pair of components. All numbers, including the reference lists, are the crate's: internal consistency, not agreement with the publication."
  },
  {
   "property": "C40",
   "status": "proved",
   "theorems": [
    "Aga8.C40_detail_absent_components",
    "Aga8.C40_gerg_absent_components"
   ],
   "note": "Any arithmetic."
  },
  {
   "property": "C41",
   "status": "proved",
   "theorems": [
    "Aga8.C41_normalize_f64",
    "Aga8.C41_tiny_sum_overflows",
    "Aga8.C41_tiny_sum_accepted"
   ],
   "note": "Model of f64: the Float logical model of Lean core. The boundary finding (tiny sums) is proved too."
  },
  {
   "property": "C42",
   "status": "proved",
   "theorems": [
    "Aga8.C42_negative_fraction_accepted",
    "Aga8.C42_empty_reported_for_nonempty",
    "Aga8.C42_accepted_is_physical_partial"
   ],
   "note": "A refutation of both halves; C42_accepted_is_physical_partial is the part that holds."
  },
  {
   "property": "C43",
   "status": "proved",
   "theorems": [
    "Aga8.C43_detail_pressure_is_aga8",
    "Aga8.C43_detail_term_constants_frozen",
    "Aga8.C43_detail_component_constants_frozen",
    "Aga8.C43_detail_binary_constants_frozen"
   ],
   "note": "Exact arithmetic, new objects, T > 1e-7. Form of the equation, with the crate's constants. The *_constants_frozen theorems compare with a copy generated from the crate: regression only."
  },
  {
   "property": "C44",
   "status": "proved",
   "theorems": [
    "Aga8.C44_gerg_pressure_is_gerg2008",
    "Aga8.C44_gerg_helmholtz_is_gerg2008"
   ],
   "note": "Exact arithmetic, new objects, T > 1e-7, some fraction at least 1e-6. Form of the equation, with the crate's constants (Spec/GergTables and GergBinary were generated from the crate)."
  },
  {
   "property": "C45",
   "status": "proved",
   "theorems": [
    "Aga8.C45_detail_densityWith_is_density",
    "Aga8.C45_detail_density_bounded",
    "Aga8.C45_gerg_densityWith_is_density",
    "Aga8.C45_gerg_density_bounded"
   ],
   "note": "Any arithmetic."
  },
  {
   "property": "C46",
   "status": "proved",
   "theorems": [
    "Aga8.C46_detail_new_is_clean",
    "Aga8.C46_detail_parameters_never_change",
    "Aga8.C46_gerg_new_is_clean",
    "Aga8.C46_gerg_parameters_never_change"
   ],
   "note": "Any arithmetic."
  },
  {
   "property": "C47",
   "status": "proved",
   "theorems": [
    "Aga8.C47_detail_helmholtz_is_aga8"
   ],
   "note": "Exact arithmetic, new objects, T > 1e-7, D > 1e-15. Form of the equation, with the crate's constants; the ideal-gas list is the crate's GERG-2008 one."
  },
  {
   "property": "C48",
   "status": "proved",
   "theorems": [
    "Aga8.C48_detail_bad_input_is_an_error",
    "Aga8.C48_gerg_bad_input_is_an_error",
    "Aga8.C48_detail_density_positive"
   ],
   "note": "Lean's Float logical model; the domain of ln (and of exp for the density's sign) is a hypothesis on the math library, met by a witness library."
  },
  {
   "property": "C49",
   "status": "proved",
   "theorems": [
    "Aga8.C49_detail_density_converges",
    "Aga8.C49_detail_low_pressure",
    "Aga8.C49_gerg_density_converges",
    "Aga8.C49_gerg_low_pressure"
   ],
   "note": "Real arithmetic. Newton's method on log P against log V with slopes varying by at most 40 per cent contracts by 0.4 per round, so 19 rounds suffice; GERG-2008 restarts in round 20 and is covered before that. Worked cases: methane at 605 K and 1 kPa (DETAIL), hot methane near 1 mol/l (GERG-2008). Not covered: starts far from the root, GERG-2008 restarts, positive flags, rounding."
  },
  {
   "property": "C50",
   "status": "proved",
   "theorems": [
    "Aga8.C50_detail_process",
    "Aga8.C50_detail_isobaric",
    "Aga8.C50_detail_isenthalpic",
    "Aga8.C50_detail_isentropic",
    "Aga8.C50_gerg_process",
    "Aga8.C50_gerg_isobaric",
    "Aga8.C50_gerg_isenthalpic",
    "Aga8.C50_gerg_isentropic"
   ],
   "note": "Exact arithmetic, each state on a new object (by C19/C24 any object whose inputs were moved by more than the tolerance behaves the same). Needs the fractions the equations read to add up to one."
  },
  {
   "property": "C51",
   "status": "proved",
   "theorems": [
    "Aga8.C51_detail_ideal_heat_capacity",
    "Aga8.C51_detail_low_density_stable",
    "Aga8.C51_gerg_ideal_heat_capacity",
    "Aga8.C51_gerg_low_density_stable"
   ],
   "note": "Exact arithmetic, new objects. The density bound depends on composition and temperature and is not given as a number."
  },
  {
   "property": "C52",
   "status": "proved",
   "theorems": [
    "Aga8.C52_gerg_nan_freezes_temperature",
    "Aga8.C52_gerg_nan_refuted"
   ],
   "note": "Refuted: frozen temperature for every math library and every history, for compositions without departure functions; kernel-checked complete runs with a concrete math library for methane and ethane."
  },
  {
   "property": "C53",
   "status": "proved",
   "theorems": [
    "Aga8.C53_detail_results_never_leak",
    "Aga8.C53_gerg_results_never_leak",
    "Aga8.C53_detail_density_ignores_old_density",
    "Aga8.C53_gerg_density_ignores_old_density"
   ],
   "note": "Any arithmetic (no law used), by induction over histories with a relation on objects that forgets the result fields."
  },
  {
   "property": "C54",
   "status": "proved",
   "theorems": [
    "Aga8.C54_detail_density_is_accurate",
    "Aga8.C54_gerg_density_is_accurate",
    "Aga8.C54_detail_z_matches",
    "Aga8.C54_gerg_z_matches"
   ],
   "note": "A posteriori: needs only that the call returned Ok, not the convergence conditions of C49. The window is of relative width 2e-7 or so, where M/m is close to one for any smooth isotherm."
  },
  {
   "property": "C55",
   "status": "proved",
   "theorems": [
    "Aga8.C55_detail_molar_mass_scales",
    "Aga8.C55_gerg_molar_mass_scales",
    "Aga8.C55_molar_mass_within_one_percent",
    "Aga8.C55_accepted_not_normalised"
   ],
   "note": "The invariance under scaling is refuted by a witness; the scaling law of the molar mass and the 1 % bound are proved for every accepted composition, over the reals."
  },
  {
   "property": "C56",
   "status": "proved",
   "theorems": [
    "Aga8.C56_models_share_the_ideal_gas"
   ],
   "note": "Over the reals. Residual contributions vanish at zero density for every history, and the ideal-gas coefficient tables of the two models hold the same numbers (kernel-checked over the whole table). Entropies and the speed of sound are not compared."
  },
  {
   "property": "C57",
   "status": "proved",
   "theorems": [
    "Aga8.C57_detail_results_continuous",
    "Aga8.C57_gerg_results_continuous"
   ],
   "note": "New objects only: on used objects the 1e-7 caching windows make results jump, see C23 and C36. At the 1e-15 cut-off of GERG-2008 components and at density 1e-15 nothing is claimed."
  },
  {
   "property": "C58",
   "status": "proved",
   "theorems": [
    "Aga8.C58_detail_second_virial",
    "Aga8.C58_detail_d2p_dd2_not_derivative_at_zero",
    "Aga8.C58_gerg_second_virial",
    "Aga8.C58_gerg_d2p_dd2_not_derivative_at_zero"
   ],
   "note": "Both models. The limit, the slope of dp_dd and the zero value of d2p_dd2 are proved for all compositions and temperatures; the derivative claim at zero density is refuted by pure methane at 151.3183 K (DETAIL) and 190.564 K (GERG-2008)."
  },
  {
   "property": "C59",
   "status": "proved",
   "theorems": [
    "Aga8.C59_detail_pressure_error",
    "Aga8.C59_detail_properties_error",
    "Aga8.C59_detail_dpdd_error",
    "Aga8.C59_detail_methane_error"
   ],
   "note": "IEEE-754 arithmetic, by propagating a relative error through every operation of setup, x_terms, alphar, pressure and properties. The math library is any one meeting Spec/F64Accuracy; one is shown to exist. The error is relative to the sum of absolute values of the terms (Spec/DetailError), which near the two-phase region can be much larger than z. For new objects; C19 carries it to histories."
  },
  {
   "property": "C60",
   "status": "proved",
   "theorems": [
    "Aga8.C60_gerg_pressure_error",
    "Aga8.C60_gerg_properties_error",
    "Aga8.C60_gerg_pure_error"
   ],
   "note": "For new objects. The reference is the equation of Spec/GergEos over the reals (an equation written from knowledge of the publication, with the crate's coefficients); the size of its terms and the input range are in Spec/GergError. The only facts assumed about the library are LibmAccurate and LnAccurate (Spec/F64Accuracy), met by a library that rounds the exact value."
  },
  {
   "property": "C61",
   "status": "proved",
   "theorems": [
    "Aga8.C61_gerg_density_error"
   ],
   "note": "For new objects. The slope hypothesis is about the real equation; C62 meets it for all mixtures at low pressure. The density range of the result is a hypothesis. Library assumptions: LibmAccurate and LnAccurate."
  },
  {
   "property": "C62",
   "status": "proved",
   "theorems": [
    "Aga8.C62_gerg_density_converges",
    "Aga8.C62_gerg_low_pressure"
   ],
   "note": "For new objects. The f64 counterpart of C49. Library assumptions: LibmAccurate and LnAccurate."
  },
  {
   "property": "C63",
   "status": "proved",
   "theorems": [
    "Aga8.C63_detail_density_error"
   ],
   "note": "For new objects. The slope hypothesis is about the real equation; C64 meets it for methane at low pressure. The density range of the result is a hypothesis. Library assumptions: LibmAccurate and LnAccurate."
  },
  {
   "property": "C64",
   "status": "proved",
   "theorems": [
    "Aga8.C64_detail_density_converges",
    "Aga8.C64_detail_methane_low_pressure"
   ],
   "note": "For new objects. The f64 counterpart of C49. Library assumptions: LibmAccurate and LnAccurate."
  },
  {
   "property": "C65",
   "status": "proved",
   "theorems": [
    "Aga8.C65_detail_entropy_error",
    "Aga8.C65_detail_energy_error",
    "Aga8.C65_detail_methane_error"
   ],
   "note": "For new objects. Library assumptions: LibmAccurate and LnAccurate. The sizes of the terms are defined in Spec/DetailEnergyError."
  },
  {
   "property": "C66",
   "status": "proved",
   "theorems": [
    "Aga8.C66_gerg_entropy_error",
    "Aga8.C66_gerg_energy_error",
    "Aga8.C66_gerg_pure_error"
   ],
   "note": "For new objects. Library assumptions: LibmAccurate and LnAccurate. The sizes of the terms are defined in Spec/GergEnergyError."
  },
  {
   "property": "C67",
   "status": "proved",
   "theorems": [
    "Aga8.C67_detail_error",
    "Aga8.C67_detail_methane",
    "Aga8.C67_gerg_error",
    "Aga8.C67_gerg_gas"
   ],
   "note": "For new objects. Library assumptions: LibmAccurate and LnAccurate. The condition is Eos.Conditioned / GergEos.Conditioned in Spec/CondError; C67_gerg_gas and C67_detail_methane prove it for gases at low density."
  },
  {
   "property": "C68",
   "status": "proved",
   "theorems": [
    "Aga8.C68_detail_methane_pipeline"
   ],
   "note": "For new objects. Library assumptions: LibmAccurate and LnAccurate."
  },
  {
   "property": "C69",
   "status": "proved",
   "theorems": [
    "Aga8.C69_gerg_methane_pipeline"
   ],
   "note": "For new objects. Library assumptions: LibmAccurate and LnAccurate."
  },
  {
   "property": "C70",
   "status": "proved",
   "theorems": [
    "Aga8.C70_detail_workflow",
    "Aga8.C70_detail_methane",
    "Aga8.C70_gerg_workflow",
    "Aga8.C70_gerg_methane",
    "Aga8.C70_gerg_low_pressure"
   ],
   "note": "First two calls on a new object. Library assumptions: LibmAccurate and LnAccurate."
  },
  {
   "property": "C71",
   "status": "proved",
   "theorems": [
    "Aga8.C71_gerg_pressure_increases",
    "Aga8.C71_gerg_mixture_properties",
    "Aga8.C71_gerg_mixture_derived"
   ],
   "note": "f64 part on a new object, with LibmAccurate and LnAccurate."
  },
  {
   "property": "C72",
   "status": "proved",
   "theorems": [
    "Aga8.C72_gerg_mixture_density",
    "Aga8.C72_gerg_mixture_workflow"
   ],
   "note": "On a new object, with LibmAccurate and LnAccurate; iflag <= 0."
  },
  {
   "property": "C73",
   "status": "proved",
   "theorems": [
    "Aga8.C73_detail_curvature_error",
    "Aga8.C73_gerg_curvature_error",
    "Aga8.C73_gerg_pure_error"
   ],
   "note": "The sizes of the terms are defined in Spec/DetailCurvature and Spec/GergCurvature. The mixed derivative of DETAIL is not included: the code always stores zero there (see the DETAIL theorems on d2p_dtd)."
  },
  {
   "property": "C74",
   "status": "proved",
   "theorems": [
    "Aga8.C74_natural_gas_stable",
    "Aga8.C74_detail_natural_gas_density",
    "Aga8.C74_detail_natural_gas_workflow",
    "Aga8.C74_detail_natural_gas_properties"
   ],
   "note": "On a new object, with LibmAccurate and LnAccurate. The limits of the compositions are in Spec/NormalGas; they follow the normal range of AGA Report No. 8 as far as it is known here. The pressure range is the proof's, not the report's."
  },
  {
   "property": "C75",
   "status": "proved",
   "theorems": [
    "Aga8.C75_natural_gas_derivatives",
    "Aga8.C75_detail_natural_gas_properties",
    "Aga8.C75_detail_natural_gas_workflow"
   ],
   "note": "On a new object, with LibmAccurate and LnAccurate. The limits of the compositions are in Spec/NormalGas."
  },
  {
   "property": "C76",
   "status": "proved",
   "theorems": [
    "Aga8.C76_detail_metering"
   ],
   "note": "f64 arithmetic with LibmAccurate and LnAccurate as in C59 and C64. Changes of more than zero and at most 1e-7 are outside the theorem: C20 shows that they are not noticed."
  },
  {
   "property": "C77",
   "status": "proved",
   "theorems": [
    "Aga8.C77_gerg_metering"
   ],
   "note": "f64 arithmetic with LibmAccurate and LnAccurate as in C60 and C62."
  },
  {
   "property": "C78",
   "status": "proved",
   "theorems": [
    "Aga8.C78_c_detail_metering",
    "Aga8.C78_c_gerg_metering"
   ],
   "note": "f64 arithmetic with LibmAccurate and LnAccurate as in C60 and C62. Single-threaded C calls, as in C38. That well-behaved programs run is C38_well_behaved_program_runs."
  },
  {
   "property": "C79",
   "status": "proved",
   "theorems": [
    "Aga8.C79_gerg_density_follows",
    "Aga8.C79_gerg_density_order",
    "Aga8.C79_detail_density_follows",
    "Aga8.C79_detail_density_order"
   ],
   "note": "Density readings of one object follow pressure and temperature, with explicit rates, for every pair of samples of the same gas."
  },
  {
   "property": "C80",
   "status": "proved",
   "theorems": [
    "Aga8.C80_detail_round_trip",
    "Aga8.C80_gerg_round_trip"
   ],
   "note": "Detail in f64 by C59 and C74, GERG-2008 by C60 and C72, with the slope of the exact pressure. On the same object, so the cached coefficients of the first call are used in the second."
  },
  {
   "property": "C81",
   "status": "proved",
   "theorems": [
    "Aga8.C81_gerg_properties",
    "Aga8.C81_gerg_workflow",
    "Aga8.C81_detail_heat_capacities",
    "Aga8.C81_detail_sound",
    "Aga8.C81_detail_workflow"
   ],
   "note": "In f64. The ranges are what interval bounds over all natural gases (GERG-2008: all mixtures) give; they are wider than the values of any one gas, the upper ones much wider. GERG-2008 states the speed of sound relative to sqrt(R T / M)."
  },
  {
   "property": "C82",
   "status": "proved",
   "theorems": [
    "Aga8.C82_gerg_raw_metering",
    "Aga8.C82_detail_raw_metering"
   ],
   "note": "The region is stated for every composition within one part in 1e14 of the exact fractions, so a gas exactly at a limit of the region is left out. The accuracy is against the equation at the fractions stored. As in C76, a change of composition or temperature from one sample to the next must be noticeable (more than 1e-7)."
  },
  {
   "property": "C83",
   "status": "proved",
   "theorems": [
    "Aga8.C83_detail_cp_at_least_cv",
    "Aga8.C83_gerg_cp_at_least_cv",
    "Aga8.C83_gerg_mixtures"
   ],
   "note": "No accuracy of the math library is used in the first two theorems, only the order of the f64 operations. A stored cp that is infinite or NaN is left out."
  },
  {
   "property": "C84",
   "status": "proved",
   "theorems": [
    "Aga8.C84_nan_accepted",
    "Aga8.C84_detail_nan_freezes_gas",
    "Aga8.C84_detail_natural_gas_frozen"
   ],
   "note": "A refutation: the theorems prove that the expected property fails, for every input described, and what happens instead. The freeze is proved for density() of DETAIL; properties() also uses the fractions directly and is not covered. For a new object see C21, for GERG-2008 see C52."
  },
  {
   "property": "C85",
   "status": "proved",
   "theorems": [
    "Aga8.C85_detail_from_estimate",
    "Aga8.C85_detail_tracking",
    "Aga8.C85_gerg_from_estimate",
    "Aga8.C85_gerg_tracking"
   ],
   "note": "Both models. Assumes an accurate math library (LibmAccurate, LnAccurate), which idealLibm_accurate and idealLibm_ln show can be met. The range of ideal-gas densities for tracking with DETAIL is 3.5e-4 to 0.59 mol/l. A temperature that changes must change by more than 1.01e-7 K (smaller changes are not noticed, C20)."
  },
  {
   "property": "C86",
   "status": "proved",
   "theorems": [
    "Aga8.C86_gerg_heating",
    "Aga8.C86_gerg_compression",
    "Aga8.C86_detail_heating",
    "Aga8.C86_detail_compression"
   ],
   "note": "Both models: C86_detail_* for DETAIL and C86_gerg_* for GERG-2008. Assumes an accurate math library (LibmAccurate, LnAccurate), which idealLibm_accurate and idealLibm_ln show can be met. Both objects are new ones."
  },
  {
   "property": "C87",
   "status": "proved",
   "theorems": [
    "Aga8.C87_detail_gibbs",
    "Aga8.C87_gerg_gibbs"
   ],
   "note": "Both models. Assumes an accurate math library (LibmAccurate, LnAccurate), which idealLibm_accurate and idealLibm_ln show can be met. Both objects are new ones."
  },
  {
   "property": "C88",
   "status": "proved",
   "theorems": [
    "Aga8.C88_models_agree_at_base_conditions",
    "Aga8.C88_same_composition"
   ],
   "note": "Assumes an accurate math library (LibmAccurate, LnAccurate), which idealLibm_accurate and idealLibm_ln show can be met. Both objects are new ones. The bound on the reducing density and the range of the reducing temperature are hypotheses on the composition."
  }
 ]
}