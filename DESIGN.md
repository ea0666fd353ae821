# Formal model of royvegard/aga8 in Lean 4 — design

## 1. Approach

The crate computes thermodynamic properties of natural gas with two equations of state (EOS):
AGA 8 DETAIL (`src/detail.rs`) and GERG-2008 (`src/gerg2008.rs`), over a 21-component
`Composition` (`src/composition.rs`), with a C interface (`src/ffi.rs`).

The model is **polymorphic in the number type**. `Verif/Arith.lean` declares a class of the
operations the Rust code applies to `f64` (`+ - * /`, negation, `abs exp ln sqrt powf powi`,
`<`, decimal literals, `usize as f64`) *without any laws*. Each Rust function is transcribed once,
for an arbitrary such type `F`. Then

* theorems about control flow, errors, frames, panics, caches and histories are proved for
  **every** `F`; they hold for IEEE-754 `f64` whatever the rounding or the libm is;
* theorems about thermodynamic identities, derivatives and mathematical formulas are proved for
  `F := ℝ` with the exact functions (`Real.exp`, `Real.log`, `Real.rpow`, ...);
* theorems about NaN, infinities, overflow and rounding are proved for `F := Float`, for which
  Lean 4.33 core has a complete logical IEEE-754 binary64 model (`Float.Model`, round to nearest
  even); `exp`, `ln`, `powf`, `powi` are left as arbitrary functions there (`class Libm`). The rounding-error theorems (C59, C60 and most from there on)
  take as hypotheses that these four functions are accurate (`LibmAccurate`, `LnAccurate` in Spec/F64Accuracy); nothing
  says that a given platform's library meets them.

Rust constructs are represented as follows.

| Rust | Lean |
|---|---|
| `&mut self` method | function from the struct to the new struct (and result) |
| `Result<(), E>` | `Except E Unit`, returned as data next to the new struct |
| panic (index out of bounds, `assert!`) | `Except.error` of the outer `Res` monad |
| `[f64; n]` | `Vector F n` |
| loop `for i in a..b` over a statically sized array | fold over the list of `Fin n` indices; the bounds check is discharged by typing |
| index that is *data* (table entry, table-driven loop bound) | checked access that can panic |
| `for it in 1..=N { ... return ...}` | structural recursion over the remaining iterations |
| decimal literal | exact decimal `Dec` (integer mantissa, power of ten) converted by the arithmetic |
| tables in `setup()` | the list of assignments, generated from the Rust text by `tools/gen_tables.py`, executed in Lean |

## 2. Trusted base

* Lean 4.33.0's kernel, and its parser/elaborator for producing the statements.
* The axioms `propext`, `Classical.choice`, `Quot.sound` only (checked per theorem by `vcheck`);
  no own axioms, no `sorry`, no `native_decide`/`bv_decide`.
* Faithfulness of the transcription Rust → Lean (by reading; every definition cites its lines). As a sanity
  test, not a proof, the same definitions run on `Float` and reproduce the repository's
  test values (see §5).
* `tools/gen_tables.py`, which copies numeric tables from the Rust text into Lean (it computes
  nothing; its output is committed and can be compared by eye).
* Provenance of the specification's numbers. `Spec/Aga8Tables`, `Spec/GergTables` and `Spec/GergBinary` were generated
  from the crate (`tools/gen_aga8_tables.py`, `gen_gerg_tables.py` with the two `dump_gerg_*.txt` scripts,
  `gen_binary.py`). There was no copy of AGA Report No. 8 or of the GERG-2008 paper. C39, C43, C44 and C47 therefore
  establish the form of the equations, where each number is used, and the consistency of numbers the crate stores
  twice. They do **not** establish that any coefficient is the published one: a misprint in the crate is in the
  specification too. The theorems named `*_constants_frozen` are regression checks against these copies. The equations
  (`Spec/Aga8Eos`, `Spec/GergEos`) were written down from knowledge of the publications, after reading the crate.
* `Spec/MolarMass` uses standard atomic weights not taken from the crate; it is the one independent numeric source, and
  only to 0.01 g/mol.
* For the `Float` theorems: that Lean core's `Float` logical model is IEEE-754 binary64. Rust's different NaN
  payloads are identified (the code never looks at payloads).
* Some `f64` theorems (C21, C52) contain complete runs of the program, evaluated by the kernel with `decide +kernel`.
  They need a concrete math library: `Spec/SeriesLibm` defines `exp`, `ln`, `powf` and `powi` by range reduction and power
  series in f64 arithmetic. It is not the platform's libm, so the reported digits are not those of any platform; the
  theorems assert inequalities with a wide margin only. Core's `Float` operations are slow in the kernel, therefore
  `Lemmas/FastRound`, `FastF64` and `FastOps` define +, -, *, /, <, negation, abs and decimal literals on raw natural
  numbers and prove them equal to core's operations on all inputs; the runs are rewritten with these equations. Nothing
  is added to the trusted base by this.
* For the `ℝ` theorems: they are statements about the exact-arithmetic reading of the program; they say
  nothing about rounding.

## 3. What is modelled and what is not

Modelled: all of `composition.rs`; all functions of `detail.rs` and `gerg2008.rs` (public and
private) with all struct fields; `lib.rs`' `DensityError`; all functions of `ffi.rs` over an
abstract heap of handles.

Not modelled: `serde`/`Display`/`Error` trait impls, memory layout (`repr(C)`), allocation failure, threads
(the Rust API takes `&mut self`, so data races are excluded by the type system), unsafe misuse of the C interface beyond
"null handle" and "dead handle" (undefined behaviour is an explicit outcome, `Fault.undefined`).

## 4. Plan per property

`any F` = proved for every arithmetic; `ℝ` = exact reals; `f64` = Lean's IEEE model.

| id | modelled | proof |
|---|---|---|
| C01 | `check`, `sum` | any F decision shape; ℝ numeric form via a `Finset` sum |
| C02 | `check` | ℝ: accepted ↔ within 1 %; f64: any NaN component is accepted (negation witness universally quantified) |
| C03 | `normalize` | ℝ, field arithmetic |
| C04 | `normalize` | any F, case split |
| C05 | `normalize`, `check`, both `set_composition` | ℝ |
| C06, C07 | both `set_composition` | any F; slot table stated component by component |
| C08 | both `molar_mass` | any F frame; ℝ weighted sum, bounds by convexity; table comparison by kernel evaluation; f64 error bound |
| C09 | whole Detail state machine | any F; induction over operation lists; bounds of `BN`, `KN` by kernel evaluation over the entire tables |
| C10 | whole Gerg2008 state machine incl. `setup` | any F; invariant "parameter tables are the set-up ones" + kernel evaluation over the entire tables |
| C11–C14 | public methods | any F; unfolding to a pure normal form |
| C15–C17 | `density` loops | any F; induction over the remaining iterations; ℝ corollaries |
| C18 | GERG `density` | any F: for all states, `iflag>0` implies `Err`. The English property is refuted |
| C19, C22 | caches | any F with `¬(|a−a| > 1e-7)`; cache-coherence invariant by induction over histories |
| C20, C23 | caches | ℝ: drift histories by induction; concrete EOS inequality as witness |
| C21 | caches on f64 | f64: NaN comparisons are false; stale-state theorem; complete runs of the model evaluated by the kernel (fast arithmetic, §2) |
| C24 | methods twice | any F with `¬(|a−a| > 1e-7)` |
| C25, C26, C29, C30 | EOS kernels | ℝ; `HasDerivAt` of the returned quantities as functions of T or D |
| C27, C28, C31, C32, C36 | `properties` | ℝ, field arithmetic |
| C33 | both | ℝ; continuity at D = 0 |
| C34 | both | ℝ |
| C35, C37 | `density` | ℝ; one loop unfolding / sign analysis |
| C38 | `ffi.rs` over a heap of handles | any F; refinement to a map of Rust objects by induction over call sequences |
| C39 | tables, `tterms`, `reducingparameters` | kernel evaluation over entire tables; ℝ for pure fluids |
| C40 | `x_terms`, `alpha0_detail`, `reducingparameters` | any F |
| C41 | `normalize` on `Float` | f64; rounding lemma library; negative witness by kernel evaluation |
| C42 | `check` | refuted over ℝ with witnesses; `_partial` positive version |
| C43, C44 | EOS | ℝ; folds = `Finset` sums of the formulas, with the crate's constants (see §2) |
| C47 | DETAIL `properties` | ℝ; `u - T s` against ideal-gas plus residual Helmholtz energy, with the crate's constants (see §2) |
| C45 | `density` | any F; evaluation counter |
| C46 | `new`, invariants | any F; induction |
| C48 | `density` on `Float` | f64: infinities and NaN propagate into the convergence test, which then fails |
| C49 | Newton iteration over ℝ, pressure curve of an arbitrary object, both models | contraction argument for functions with slope in [m, 1.4 m] (`Lemmas/Newton`), round-by-round refinement of the loops (`Lemmas/DetailNewton`, `Lemmas/GergNewton`), linear bounds on the residual terms at low density |
| C50 | Pressure, energy and entropy as jointly differentiable functions of T and D, with the partial derivatives of C25-C32 | chain rule for a path; the laws follow by algebra from the partial derivatives; worked: through every state of every gas there are an isobar, an isenthalp and an isentrope; methane states meet the sign conditions |
| C51 | cv/R as a constant plus sinh and cosh terms, over the crate's whole ideal-gas table | (y/cosh y)^2 <= 1/2 and a^2 (b/cosh b)^2 <= b^2 (a/sinh a)^2 for 0 < a <= b turn the bound into a condition on the rational table entries, checked by the kernel for every component; low density by linear bounds (DETAIL) or continuity (GERG) |
| C52 | GERG caches on f64 | as C21; `C52_gerg_nan_freezes_temperature` by showing that the NaN evaluation leaves the cache unchanged up to the remembered temperature; runs evaluated by the kernel |
| C53 | noninterference: relation on objects ignoring result fields (Spec/Leak), preserved by every call | induction over pairs of histories; Lemmas/DetailLeak, GergLeak |
| C54 | density contract C16/C17 over ℝ, isotherm as the functions pressure() and properties() compute | mean value and intermediate value theorem around the last Newton step (Lemmas/Accuracy) |
| C55 | set_composition followed by molar_mass in both models, normalize | molar mass as a sum over the fractions (C08), scaling by the sum (C03); the witness is methane at 1 and 0.99 |
| C56 | properties of both models at zero density after any history | the residual sums vanish at zero density (C33); the ideal-gas sums are compared component by component with the tables shown equal by kernel evaluation |
| C57 | Limits of the closed forms of the results (residual sums, mixture parameters, ideal part) along an arbitrary filter. | The mixture energy parameter is bounded away from zero (its fifth power is at least the sum of squares of x_i E_i^(5/2)), so its negative powers are continuous; x ln x is continuous at zero; for GERG-2008 the set of present components is eventually constant, all denominators of the reducing functions are positive. |
| C58 | density sums of both models differentiated at zero density, compared with Eos.B and GergEos.alphaR | termwise derivative at zero: only terms with density exponent 1 contribute, which cancel in DETAIL; exact rational value of B for methane for the refutation |
| C59 | model: Float instance of the DETAIL model; equation: Spec/Aga8Eos; size of terms: Spec/DetailError; library: Spec/F64Accuracy | proof: predicate Ap (finite, relative error count, magnitude range) propagated through each operation (F64Ap*, DetailErr*) |
| C60 | `Ap a α m k l h` says that the f64 `a` is within `k` half-ulps of `m` of the real `α`; rules for every operation (Lemmas/F64Ap*, F64ApLn). Lemmas/GergErr{Tab,Red,Term,Sum,Eos,Fresh,Pure} follow the reducing functions, δ, ln τ, every term and the sums of `alphar` from the constructor's tables on. | Lean: `C60_gerg_pressure_error`, `C60_gerg_properties_error`, `C60_gerg_pure_error` in Props/GergError. |
| C61 | `Gerg.density_err` (Lemmas/GergErrDens): rounding of the pressure and of dp_dd (C60), of the Newton quotient (Lemmas/F64Newton) and of the last exponential, then the perturbed form of C48 (Lemmas/AccuracyPert). | Lean: `C61_gerg_density_error` in Props/GergDensityError. |
| C62 | `Gerg.converges_f64` (Lemmas/GergErrConv): every round contracts the distance to the root by 0.4 up to 2.7e-8; `density_conv` (GergErrStart): the start. Low pressure: every term is at most its size, `Z_close` (GergErrSmall), and the sizes are at most 29.5 δ (GergErrLow, coefficient sums by kernel evaluation over the whole tables). | Lean: `C62_gerg_density_converges`, `C62_gerg_low_pressure` in Props/GergDensityError. |
| C63 | `Detail.density_err` (Lemmas/DetailErrDens): rounding of the pressure and of the density derivative (`ap_dp` in DetailErrDp), of the Newton quotient (F64Newton) and of the last exponential, then the perturbed form of C48 (AccuracyPert). | Lean: `C63_detail_density_error` in Props/DetailDensityError. |
| C64 | `Detail.converges_f64` (Lemmas/DetailErrConv): every round contracts the distance to the root by 0.4 up to 2.7e-8, so that 19 of the 20 rounds are enough; `density_conv` (DetailErrStart): the start. Methane: the deviation from the ideal gas is at most the sizes of the terms (`abs_Z`), which are at most 5 and 10.8 times the reduced density (DetailErrLow, coefficient sums by kernel evaluation over the whole table). | Lean: `C64_detail_density_converges`, `C64_detail_methane_low_pressure` in Props/DetailDensityError. |
| C65 | The rounding-error calculus of C59 extended to the ideal-gas sums (`ap_hyp`, `ap_a0`: hyperbolic functions from two exponentials, logarithms measured by `1 + |log|`) and to the temperature rows of the residual array (`ap_ar`). | The sums are the temperature derivatives of the Helmholtz energy: `entropy_sum`, `heatV_sum`, `pressureT_sum` (Lemmas/DetailErrEnergy). Methane: the size of every term is bounded by a rational number (`termSize_mx`), which the kernel adds up. |
| C66 | The rounding-error calculus of C60 extended to the ideal-gas sums (`ap_ga0`) and to the temperature rows of the residual array (`eadds00` to `eadds20`). | The sums are the temperature derivatives of the Helmholtz energy (`entropy_I`, `heatV_I`, `pressureT_I` in Lemmas/GergErrEnergy). Pure fluids: the size of every term is bounded by a rational number, which the kernel adds up for each fluid (`pure_sums`, `ideal_bnds`). |
| C67 | A calculus of relative errors (`Rl` in Lemmas/F64Rel) for quotients, squares and square roots, started from the absolute bounds of C59, C60, C65 and C66 by the condition on cancellation (`Lemmas/F64CondOf`). | The condition at low density: the residual terms are bounded by rationals times the reduced density, summed by the kernel over the whole tables, and the ideal-gas heat capacity is bounded below component by component (`conditioned_low`). |
| C68 | The equation for methane is a sum of 18 products of a temperature function and a density function (`Lemmas/DetailBox`). The range of temperature is split into 36 intervals and the density into 42; integer bounds of both sides of every product are checked against the coefficient table by the kernel (`Lemmas/DetailBoxTab`, `DetailBoxChk`), for all reals in the interval by monotonicity (`Lemmas/DetailBoxIv`). | From the bounds of the sums on 1253 rectangles follow the hypotheses of C64 with a window, a slope and a cancellation factor for each of 992 starting rectangles, which cover the range (`Lemmas/DetailBoxCurve`). dP/dD is positive on all the rectangles below the window, so no smaller density has the same pressure. |
| C69 | The equation for a pure fluid is a sum of products of a temperature power and a density function, grouped by the density exponents (`Lemmas/GergBox`). A table of bounds (`BoxTab` in `Lemmas/GergBoxCurve`) splits the temperature and the density into intervals; its entries are checked against the coefficient table by the kernel, for all reals in the interval by monotonicity (`Lemmas/GergBoxIv`). The table of methane has 41 temperature and 50 density intervals (`Lemmas/GergBoxMethaneTab`, `GergBoxMethaneChk`). | From the bounds on 1473 rectangles follow the hypotheses of C62 for each of 1155 starting rectangles, which cover the range (`Lemmas/GergBoxCurve`). dP/dD is positive on all the rectangles below the window, so no smaller density has the same pressure. |
| C70 | Both calls on one object; the results of `properties` after `density` are those of a new object with the density found (`Lemmas/AfterDensity`, from the simulation behind C19 and C22). | The exact solution is within 0.4 of the window, so the computed density is in the window; the mean value theorem for ln p over ln D bounds the change of ln Z (`Lemmas/NewtonNear`); C59 and C60 bound the rounding of z and p. |
| C71 | The residual sums are linear in the fractions and in their products, so bounds for the 21 fluids and the 15 departure functions give bounds for all mixtures (`mix_le`, `le_mix` in `Lemmas/GergMixTable`). | 33 intervals of the reduced temperature and 16 of the reduced density; on each of the 528 rectangles the positive and negative terms are bounded separately with integers (`Lemmas/GergMixBox`); the tables are generated (`Lemmas/GergMixTab`) and checked in the kernel (`Lemmas/GergMixChk`). C60, C66 and C67 turn the bounds of the cancellation into relative errors. |
| C72 | The tables of C71 bound the compression factor and the slope of the pressure on the window around the ideal-gas density that the iteration stays in (`Lemmas/GergMixDens`); these bounds are the conditions of C62 and C70. | Uniqueness up to half the reducing density is the positive slope of C71. The properties after `density` are those of a new object with the density found (`Lemmas/AfterDensity`), so C71 applies to them. |
| C73 | Third density derivatives of the residual sums are added to the rounding-error estimates of C59 and C60; the exact side is `deriv` of `(∂p/∂D)_T` on real numbers. | Proved in Props/CurvatureError.lean (Lemmas/DetailErrCurv, GergErrCurv, GergErrPure3). |
| C74 | The second virial coefficient of a natural gas lies between -0.132 and 0.0303 l/mol: a bound on every entry of its quadratic form, on both sides and on strips of the temperature, checked by the kernel on the coefficient tables, and the bound of a linear form over the composition box (`Lemmas/NgBox`, `NgTab`, `NgPair`). The mixture size, energy, orientation, quadrupole and high-temperature parameters are bounded the same way (`Lemmas/NgMix`). | The remaining 46 terms of Z and of its slope are bounded by term-wise monotone functions of the reduced density (`Lemmas/NgSum`), evaluated at three densities (`Lemmas/NgCurve`). The slope is 2 Z - 1 plus a small remainder, which gives the conditions of C64 and C70; C59 gives the errors at a given density. |
| C75 | C67 gives these errors for every state whose cancellation is at most a factor K; for natural gas K = 13. The temperature derivatives weigh term n with u - 1 and u (u - 1), with u its temperature exponent; these weights vanish for the large terms with u = 0 and u = 1 that nearly cancel. The kernel checks the weighted bounds of every pair of components (`Lemmas/NgTab2`, `NgHeat`). | The ideal-gas heat capacity is bounded below by 2.42 R from a table per component, and the size of its terms by 4.43 times its value (`Lemmas/NgIdeal`). `Lemmas/NgCond` puts the parts together. |
| C76 | Spec/Metering: the calls for a sample, the samples meant, the changes meant, accurate results | induction over the list of samples with the cache invariant of C19 (step_sim), set_composition accepted by C02_f64_sound, and the results on a new object from C74 and C75 |
| C77 | Spec/GergMetering: the calls for a sample, the samples meant, accurate results; Spec/Metering: the changes meant | induction over the list of samples with the cache invariant of C22 (step_sim) and the results on a new object from C72 |
| C78 | Spec/FfiMetering: the six calls for a sample and what they give back on success; Spec/Ffi: programs | C38 reduces the calls with one handle to a Rust object; induction over the samples relates it to the metering of C76 and C77 |
| C79 | The exact density is a function of pressure and temperature whose logarithmic rates are bounded from the bounds of the sums of C74/C75 (log_slope, Ng.slope_D, Ng.slope_T), and for GERG-2008 mixtures from the tables of C72 (isotherm, isochor, order_mix). | The readings are within 7.2e-8 (C76) or 9.7e-8 (C77) of the exact density, so the order and the rates carry over. |
| C80 | `pressure` and `density` of both models at `Float`, with a field write between them. | The rounding error of the pressure (C59, C60) is a small relative error because the cancellation is bounded (Ng.ng_window, mix_cond); the exact density of the returned pressure is near the density that was set because the slope of ln p by ln D is at least 0.78 (0.807); the search finds that exact density (C74, C72); the object after `pressure` behaves like a new one by step_sim. |
| C81 | `properties` (and `density` then `properties`) of both models at `Float`. | Interval bounds of the exact heat capacities, slope of pressure and molar mass over all natural gases (Detail.Ng.heat_range, mass_range, speed_range) and the f64 error of every property from C75. GERG-2008: the tables of C71 up to a tenth of the reducing density (`GergMixRange`) and the f64 errors of C71 and C72. |
| C82 | `normalize`, `set_composition`, `density` and `properties` of the models at `Float`, in a list of samples on one object. | The error of `normalize` (C41) is relative and zero stays zero, so the normalized sample is a sample of C76 or C77; the list by induction. |
| C83 | `properties` of the models at `Float`, for every state. | IEEE addition, multiplication and division are monotone around zero: products and quotients of numbers of one sign are not negative, and adding a number that is not negative does not make a positive one smaller. Proved from the bit-level model of f64, applied to the last step of `properties`. |
| C84 | `Composition::check`, `normalize`, `set_composition`, and `density` of the DETAIL model at `Float`, in a list of samples. | A NaN makes the sum NaN, and no comparison with NaN holds. The test for changed fractions is such a comparison, so two objects that differ only in the fractions they hold stay in step; by induction over the search and over the samples. |
| C85 | `density` of the DETAIL model at `Float` with a negative `d`, alone and in a list of samples on one object (`trackAll`). | The convergence theorem of C64 with the estimate as its start. The logarithmic slopes of the pressure along isotherms and isochors bound how far the density moves between samples, so each result is a good estimate for the next; induction over the samples with the invariant of the cache. GERG-2008: the same from C62 and the slopes of C72, with an upper bound of the slope along isochors from the table of the sizes of the terms (`GergMixUpper`). |
| C86 | `properties` of the DETAIL and GERG-2008 models at `Float`, for two states of one mixture. | The slopes of the exact energies and of the entropy are the isochoric heat capacity (C81), the slope of the pressure and their quotients; the mean value theorem gives the rise. The rounding errors are those of C65 and C66, with the sizes of the ideal-gas terms bounded at 200 K by `decide +kernel` over the components and those of the residual terms by the sums of C74 and C72. |
| C87 | `properties` of the DETAIL and GERG-2008 models at `Float`, for two states of one mixture. | The slope of the exact Gibbs energy is `RT/D` times the sum of the fractions minus one plus the reduced slope of the pressure, which C71 and C74 bound from below; the mean value theorem gives the rise. The rounding errors are those of C65 and C66, with the sizes of the terms bounded as for C86. |
| C88 | `density` of the DETAIL and the GERG-2008 models at `Float`, with the mole fractions matched component by component. | The searches converge to the roots of the two equations (C72, C74). At those low densities the compression factors are within 0.8 % below and 0.2 % above one: for DETAIL by the range of the second virial coefficient and a bound of the rest, for GERG-2008 by the tables of C71 (`decide +kernel`). The logarithms of the densities then differ by less than 0.0095. `C88_same_composition`: `set_composition` of one composition gives both models the same verdict and the same fractions (from C06 and C07). |

## 5. Findings (code versus property)

### 5.1 Properties that are false of the code

| id | what happens | theorem |
|---|---|---|
| C02 | `check` accepts a composition whose sum is NaN, and, in f64, finite cancelling fractions (1e20, 5, -1e20, 1) whose true sum is 6 | `C02_*` |
| C18 | GERG `density` with `iflag > 0` never returns `Ok` | `C18_*` |
| C20 | DETAIL overwrites its remembered temperature and composition even when it does not recompute, so a chain of small steps reaches any temperature and composition with the old results | `C20_detail_small_steps_never_recompute` |
| C21 | after a NaN input, DETAIL evaluates the next valid state as an ideal gas: Z is 1 (or NaN), where a new object reports another Z; after 300 K and a NaN temperature, the next temperature is ignored. Shown for every math library, and by complete runs with a concrete one | `C21_*` |
| C23 | the drift of temperature and composition of C20 in GERG-2008, among compositions with the same components present; for mixtures with departure functions at constant temperature only | `C23_*` |
| C52 | after a NaN temperature, GERG ignores the next temperature (Z is bit for bit the one of the temperature before the NaN; NaN on a new object); after a NaN composition it keeps the reducing parameters of the earlier composition (ethane: Z about 1 instead of 0.355) | `C52_*` |
| C41 | `normalize` of a composition with a very small sum returns `Ok` with infinite or NaN fractions, which `check` then accepts | `C41_*` |
| C42 | negative fractions are accepted, cancelling fractions are reported `Empty` | `C42_*` |
| C55 | an accepted composition is not rescaled, so 0.99 methane has a molar mass 1 % below that of 1 methane | `C55_accepted_not_normalised` |
| C84 | every composition with a NaN is accepted; a DETAIL object then goes on metering the gas it had before, also when good readings of another gas follow | `C84_*` |
| C58 | at densities up to 1e-15 both models report `d2p_dd2 = 0`, although `dp_dd` has slope `2 R T B` there | `C58_*_not_derivative_at_zero` |

### 5.2 Statements that were narrowed

After comparing each English statement with its theorem, the statements of C02, C18, C20, C21, C23, C26, C27, C30, C35,
C36, C40, C41, C42, C43 and C44 in `properties.jsonl` were changed to say what is proved; those that are false were
retitled "Refuted: ...". The status "proved" of such a property refers to the narrowed or negated statement.

### 5.3 Other observations, by reading

Not theorems unless one is named.

* After a successful `density`, `z` is that of the previous iterate.
* GERG `properties` does not set `p`, so the C getter is stale after it (`C38_gerg_properties_keep_pressure`).
* A GERG density restart can evaluate outside the range of ln v that the loop otherwise keeps to.
* A new DETAIL object with T <= 1e-7 does not compute its temperature terms.
* Departure models 8 and 9 of GERG are declared and unused; the parsed `gvij`, `btij`, `gtij` fields are not used.
* `src/gerg2008.rs:4392` computes the private field `a` as `rt * a0 + ar`, without the parentheses its name suggests. No
  public function or getter reads it, so no property is affected.
* Over ℝ, `Real.log` of a negative number is `log |x|`, where the program has NaN.

### 5.4 Sanity run of the model (a test, not a proof)

The model was compiled on `Float` and run on the inputs of the repository's tests: all 52 asserted constants were within
the tolerance of the test. This is evidence for the transcription only. The script is `tools/run_model.txt`.

### 5.5 Wrong programs

`seeded/LOG.jsonl` has one line per edit. `theorems_failed` lists declarations whose own proof fails;
`theorems_resting_on_failed_helper` lists claims whose proof uses a helper lemma that fails. The second kind is weaker
evidence: it shows that this proof is lost, not that the claim became false. An edit of a table entry is caught by
comparison with a frozen copy of the crate's numbers (§2).
