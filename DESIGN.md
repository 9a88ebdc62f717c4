# Formal model of qcd-sme-rs in Lean 4

Properties: `properties.jsonl` (C01, C02, ...). Model and proofs: `lean/Verif/`.
Claims table: `MANIFEST.json`. Mutation tests: `seeded/LOG.jsonl`.

## 1. What is modelled and how

The crate is a collection of closed-form numerical formulas (generic over real
and complex arguments), a handful of mutable global constants, a small set of
control-flow functions (root finder, phase-boundary logic) and wrappers that
integrate the formulas numerically. Each kind is modelled differently.

* **Formulas** (`common`, `low_level`, `ym`, `qcd`) are transcribed term by term
  into Lean functions over a class `Num T` that mirrors the Rust trait `Num`,
  with two instances: `ℝ` (for `f64`) and `ℂ` (for `Complex<f64>`).
  Semantics: *exact arithmetic*. `ln` is `Real.log` / the principal branch
  `Complex.log`, `sqrt` is `Real.sqrt` / the principal square root, `exp` is the
  exponential. There is no rounding, overflow or underflow in this reading: its
  results say that the formulas coded are right, not that the last digits
  printed are. The same transcription read over floating-point numbers, for part
  of the code, is listed after the table below. Mixed-type operations (`T op R`, `T op C`) become
  coercions `ofR : ℝ →+* T`, `toC : T →+* ℂ`.
  Lean's totalised `x/0 = 0`, `log x` for `x ≤ 0`, `sqrt x` for `x < 0` do not
  agree with IEEE; theorems carry guards or the definedness is proved separately
  (C26, C38, C108, C109).
* **Global constants** (`consts.rs`) are a record threaded through setters and
  readers; a history is a list of setter calls; a panicking setter yields an
  error value and the unchanged record. The value type is an arbitrary type with
  an arbitrary test "x > 0", so NaN and infinities are covered. For the
  concurrency property each setter is split in its individual reads and writes of
  the statics and schedules are lists of thread steps (sequential consistency).
  Functions that read the constants take the record as an explicit argument.
* **Control flow over floats** (`find_root`, `find_critical_temperature`,
  `reduce_phase_boundary`, `is_deconfined_phase`) is modelled over abstract
  operations with as few laws as possible, so that the theorems hold for IEEE
  arithmetic; panics are explicit error values. Where a law of ordering is needed
  it is an explicit hypothesis/class field and an instance including a NaN is given.
* **Numerical integration** (peroxide's `integrate`) is outside the repository:
  it is a parameter (an arbitrary functional of integrand, interval and method).
  Theorems hold for every integrator, or for every integrator with a stated
  property (linear), or for the exact integral (`∫` of Mathlib).
* **FieldConfig** is a record with the public fields and the cached list.

* **Programs** (`tc_long_prop/src/bin/physical_tc.rs`): the scans and `main` are
  modelled as functions from the input and the output directory (a list of named
  contents) to the new directory and a possible panic. The propagators, the text
  format `{:.4}` and the external optimiser are parameters.

### Coverage by file

| file in /repo | modelled in `lean/Verif/Model` | not modelled |
|---|---|---|
| qcd-sme/src/types.rs | Num (`NumOps`, `Num`), Partial (`Option ℝ` reading) | `ABS`/`RE`/`IM` helpers beyond what the formulas use, rounding |
| qcd-sme/src/consts.rs | Consts (all setters and readers, also split in steps for threads) | weak memory |
| qcd-sme/src/utils.rs | Utils (`find_root`, `compute_residue`, `spectral_function`) | the `Debug` output |
| qcd-sme/src/common, low_level/common | Common (all) | |
| low_level/oneloop/{ghost,gluon}.rs, ym/{ghost,gluon}.rs | Vacuum (all `inlines` functions) | |
| qcd/{types,gluon}.rs | Qcd (all) | |
| qcd/ghost.rs | re-exports of `ym::ghost`: nothing to add | |
| low_level/oneloop/thermal/{mod,zero_momentum,zero_matsubara}.rs | Thermal (all 111 `inlines` functions) | |
| low_level/oneloop/thermal/{ghost,gluon}.rs | ThermalParts (integrands), ThermalIntegrals (integrated parts) | |
| ym/thermal.rs, qcd/thermal.rs | ThermalDressing (all gluon and ghost functions), ChargeDensity (module `quark`) | |
| qcd-sme/src/ffi.rs and the `ffi` modules | Ffi (all 234 `extern "C"` functions, a process as a sequence of calls by name) | the calling convention, the Python wrapper (see Scripts) |
| tc_long_prop/src/lib.rs | TcLongProp | the Levenberg-Marquardt fit of `parametrize_phase_boundary` (a parameter), plots |
| tc_long_prop/src/bin/physical_tc.rs | TcLongProp (`Config`), Scans (scans, `main` after reading the input) | reading of the YAML input, plots, logs, failures of the file system |
| tc_long_prop/src/bin/{one_mass,two_masses}_overall.rs | the settings, loops, configurations, calls of the library, normalisation, search of the maximum, lines of tc.out, and domain, curves, legend and file name of each plot (Model/Overall.lean); panic of the search as `none` | logging, the thread pool (`par_iter` as `map`; the closures only read, see C121), text layout of tc.out, gnuplot. `grid` truncates like the `as usize` cast; with floats `(0.2-0.01)/0.005` is exactly 38 and `(3-0.01)/0.01` exactly 299, so the real and the floating-point grid have the same number of points |
| qcd-sme/examples/ym_thermal_gluon_poles.rs | ExamplePoles (searches, table, lines of poles.out, plotted series) | text layout, drawing, failures of the file system |
| qcd-sme/examples/qed_htl_limit.rs | ExampleHtl (functions, plots) | drawing |
| qcd-sme/examples/ym_thermal_gluon_propagator.rs | ExamplePropagator (loops, rows of the files, plots) | text layout of the numbers, drawing, failures of the file system. With floats `(3-0.2)/0.01` is exactly 280, so the floating-point grid has the same number of points |
| qcd-sme/examples/qcd_gluon_propagator_asymptotics.rs | ExampleAsymptotics (functions on the constants, plots) | drawing, printed differences |
| qcd-sme/examples/qcd_quark_charge_density.rs, qcd_quark_chemical_potential.rs | ExamplePlots | drawing; that peroxide rejects the eleven labels of the three curves of the detail plot is outside the model, C102 proves the mismatch |
| qcd-sme/examples/qcd_gluon_propagator.rs, qcd_gluon_polarization_quark.rs, qcd_gluon_polarization_quark_integrand.rs, qcd_gluon_quark_polarization.rs | ExamplePlots | drawing, rounding of the number of grid points |
| qcd-sme/examples/qcd_gluon_propagator_compare.rs | ExamplePlots | drawing, failures of file operations |
| tests/numerics.py | Numerics | l.1-5 (imports) and l.487 to the end, if any (printing of the test values) |
| python/pyqcd_sme_so.pyx, tests/ym_gluon_propagator.py | Scripts | opening files, printing, the two calls at the end of the script (their data files are not in the repository); conversion of Python objects |
| qcd-sme/build.rs | Build | the generated text (a parameter), failures of the file system, the printed warning |
| qcd-sme/tests, Makefile | | all |

Floating-point rounding, overflow and NaN are modelled for common/mod.rs and common/thermal.rs (real arguments, C111, C112), the residues and spectral functions of utils.rs (C113, C122) and the vacuum functions of the ghost, the gluon and the quark loops at real arguments (C114, C115), the gluon functions with quarks and the field configurations they use, at real arguments (C124), the vacuum functions of the ghost and the gluon, their (inverse) dressing functions and propagators at complex arguments (C125, C126), the gluon functions with quarks at complex arguments (C127), the integrands of the tadpole diagrams (C128), the root finder (C118), the charge density and chemical potential at zero temperature (C119), the charge density at finite temperature (C123) and the phase boundaries, grids and fits of tc_long_prop (C120); the rest is read with
exact arithmetic. Parallel scans (`par_iter().map(f).collect()`) are read as `map` in the
models of the programs; that this is right on every schedule is C121 (Model/Parallel), which assumes of rayon
only that the closure is called once on each item and result `i` becomes element `i`. Not modelled: the
thread pool itself, performance.

### Module map

`Model/` transcribes the code; `Spec/` contains what the theorems are stated in terms
of; `Props/` the theorems named `Cnn_…`, with examples; `Lemmas/` helpers of proofs.
`Props/Cases.lean` and `Props/CasesMore.lean` give, for over 500 theorems, concrete arguments that meet all their hypotheses; the cases of the others
(histories, files, programs, floating-point numbers) are the examples in their own files.
Specifications to read first:

* `Spec/Consts.lean`: the value a global constant must have after a history.
* `Spec/Utils.lean`, `Spec/TcLongProp.lean`, `Spec/Scans.lean`: root finder, phase boundary, scans.
* `Spec/Qcd.lean`, `Spec/Thermal.lean`, `Spec/ThermalDressing.lean`: sums over quarks, units, defaults.
* `Spec/ThermalLoop.lean`: one-loop diagrams with one line on shell, the object the thermal
  integrands are compared with (C62, C63).
* `Spec/Diagrams.lean`: Feynman rules, polarisations, thermal part of a diagram, insertions of
  the two-gluon vertex (C70, C71).
* `Spec/MassDerivative.lean`, `Spec/ZeroMomentum.lean`, `Spec/ZeroMatsubara.lean`: domains of
  regularity for derivatives and limits (C39-C41).
* `Spec/HardThermalLoop.lean`: textbook polarizations at high temperature (C75).
* `Spec/Floats.lean`: what it means for a floating-point number to be a given number; the numbers of f64 (C111).
* `Spec/FloatRoot.lean`, `Spec/FloatDensity.lean`: the secant point and the size of its terms (C118); exact densities, loss of digits, accuracy of `powf` (C119); `Spec/FloatTc.lean`: distance from a boundary, size of the terms of a polynomial (C120).
* `Spec/Parallel.lean`: the table a loop on one thread gives (C121).
* `Spec/FloatThermalDensity.lean`: points of the interval of integration that are not extremely small, quadratures that look only at such points, occupation numbers and densities (C123).
* `Spec/VacuumAccuracy.lean`: sums of the absolute values of the terms of the vacuum functions (C115), quarks of usual and of very small mass (C124).
* `Spec/ComplexAccuracy.lean`: the same sums with norms, distance of a complex result from a number, the region of complex arguments (C125).
* `Spec/ComplexPlane.lean`: the region off the real axis, the lists of functions, the computed spectral function (C126).
* `Spec/ComplexQcd.lean`: the region of the quark loops, the lists of gluon functions with quarks (C127).
* `Spec/FloatTadpoles.lean`: two computed values of one sign, the second not larger in size (C128).
* `Spec/FloatResidue.lean`: numbers of usual size, relative error of a real and of a complex floating-point number (C122).
* `Spec/Build.lean`: the declaration of the complex type in the headers (C110).
* `Spec/Overall.lean`, `Spec/Ffi.lean`: tables of the scanning programs, the C interface (C76 on).
* `Spec/Matsubara.lean`: four-momenta, Matsubara sum minus energy integral (C81); `Spec/Insertions.lean`:
  derivatives with respect to the mass squared of families of diagrams (C83); `Spec/QuarkDiagram.lean`:
  Dirac matrices, quark loop, fermionic frequencies with a chemical potential (C84); `Spec/Vacuum.lean`:
  four-dimensional integrals with a cutoff (C85); `Spec/FinitePart.lean`: finite part of divergent diagrams, gluon self-energy (C86).

## 2. Plan per property

| id | modelled as | proof |
|---|---|---|
| C01-C03, C05 | state machine `Consts`, list of setter calls | induction over histories, refinement to a "last accepted value" spec |
| C04 | micro-step machine, schedules | witness schedule; invariant under mutual exclusion |
| C06 | default-method wrappers with the integrator as a recording parameter | equality for every reachable state; refutation of the documented claim |
| C07-C09 | `find_root` over uninterpreted arithmetic | induction on the iteration budget |
| C10 | `find_root` at exact real/complex arithmetic | computation of two secant steps |
| C11-C12 | `compute_residue`, `spectral_function` over ℂ | algebra and limits |
| C13-C16 | distributions over ℝ/ℂ | real analysis |
| C17-C18 | vacuum functions over `Num` | algebra |
| C19-C21 | vacuum functions over ℂ | branch-cut lemmas: the arguments of ln and sqrt stay in the slit plane |
| C22-C25 | vacuum functions over ℝ | derivative and asymptotic analysis |
| C26 | second interpretation of the same formulas over `Option ℝ` (none = undefined) | the interpretation returns `some` of the exact value |
| C27-C32 | `FieldConfig` functions | induction over quark lists; witnesses for the refutations |
| C33-C41 | thermal integrands over several `Num` types | transport to ℂ, algebra, branch lemmas, limits, derivatives |
| C42-C45 | thermal dressings with integrator parameter | congruence of integrands |
| C46-C47 | exact integrator | change of variables, interval splitting |
| C48 | integrand limits | `Filter.Tendsto` |
| C49 | homogeneity | algebra |
| C50-C52 | charge density and inverse | algebra, monotone integrals, root-finder soundness |
| C53-C57 | lists | induction |
| C58 | `compute_vec` over ℝ | rounding lemma |
| C59 | `Config` state machine | induction over histories |
| C60 | vacuum asymptotics | limits summed over the quark list |
| C61 | quark loop as an integral over a Feynman parameter | differentiation in s, uniqueness of the antiderivative |
| C62, C63 | angular integral of the on-shell loop, projected trace | antiderivative in the cosine, branch lemmas for the complex logarithm |
| C64-C66 | `compute_phase_diagram` with arbitrary propagators | induction over the lists, C53; mean value theorem |
| C67 | directory as a list of writes | distinct names from the separation of the grids |
| C68, C69 | `main` | composition of the stages, witness run for the negative statement |
| C70, C71 | Feynman rules over `Fin 4 → ℂ` with explicit indices, residues as limits, mass derivatives of integrals | tensor contractions to closed forms, partial fractions in the denominators, C62 and C39 |
| C72, C73 | exact integrator, `beta → ∞` | bounds `Dom` on each primitive (linear growth times a Bose or Fermi factor, uniform for `beta ≥ b0`), closed under the algebra of the integrands; dominated convergence |
| C74 | real part of the zero-frequency ghost integrand near its pole | residue as a limit of continuous functions; non-integrability of `1/x` |
| C75 | exact integrator, `T → ∞` with `mu/T → ν`; textbook polarizations in Spec/HardThermalLoop.lean | rescale the loop momentum by the temperature, dominated convergence, `∫ y (f(y-ν)+f(y+ν)) = π²/6 + ν²/2` (from the zeta value at 2), large-momentum expansion of the logarithms |
| C76 | model of both `main`s with settings as a parameter; Spec/Overall.lean says what a line of the table means | induction on the list of numbers of fermions with the history of setter calls; the search returns the first maximum of a strictly increasing grid; `C29` for the agreement of the programs |
| C77 | the list of plots returned by the model | from the explicit result of `main`; floor of the number of steps for the grids |
| C78 | exact integrator | `C72` for the propagator at both momenta, continuity of the quotient |
| C79 | table of exported functions with their C types; a process is a list of calls by symbol. The setters are `extern "C"`: with current compilers a failed `assert!` cannot unwind and aborts, which is what this model does (the models of C01-C05 let a Rust caller catch the panic, as older compilers do; in both nothing is stored) | dependent types make a well-typed call defined; distinct symbols decided by the kernel on the whole list; induction on the sequence |
| C80 | the 42 pairs of exported functions | C21 through the definitions |
| C81 | loop integrands over `Fin 4 → ℂ`, sums over `ℤ`, Lebesgue integral over ℝ³ | a rational function with simple poles: Lagrange partial fractions, sum of a simple pole over the lattice from the cotangent expansion, its integral over the line; shift of the spatial momentum; integrability from exponential decay on shell; spherical coordinates about the external momentum; the lines match C62 and the diagrams of C70, C71 |
| C82 | C39 integrands, their integrals as functions of the mass squared | the integrand times exp(beta q) is bounded and Lipschitz in the mass squared with polynomial growth in q (closure lemmas), so the integral can be differentiated under the integral sign; the boundary terms of C39 integrate to zero |
| C83 | integrated functions with the exact integrator; diagrams of C70, C71 as functions of the mass squared, thermal parts as in C81 | closure of differentiable integrals under sums and products with coefficients, applied to the decomposition of the diagrams used for C70, C71; C82 for the derivatives, C81 for the values |
| C84 | integrated quark functions with the exact integrator; quark diagram as a trace of four Dirac matrices and propagators (Spec/QuarkDiagram), for any matrices satisfying the Clifford relations | trace in closed form; partial fractions in the energy with four simple poles; fermionic sums of simple poles at complex shifts from the cotangent series, and the line integrals from the residues; integral over the angles as in C81; C63 for the integrands; vanishing of the occupation numbers beyond the Fermi momentum |
| C85 | vacuum ghost functions over ℝ; diagrams integrated over a ball in four dimensions, subtracted, cutoff removed (Spec/Vacuum) | rotation of the momentum on an axis, hyperspherical coordinates, angular integral in closed form, radial integral by the fundamental theorem of calculus, derivative in the mass squared of the closed form; C83 for the thermal part |
| C86 | vacuum gluon functions over ℝ; diagrams integrated over a ball in four dimensions, finite part (Spec/FinitePart) | rotation of momentum and polarisation on axes, average over the polarisations, angular integrals in closed form, a change of variable that makes the radial integral rational, partial fractions, asymptotics, derivative of the closed form in the mass squared; uniqueness of the finite part; C83 for the thermal part |
| C87 | vacuum quark-loop functions over ℝ; Feynman rules with Dirac matrices (Spec/QuarkDiagram), finite part minus value at zero momentum (Spec/VacuumQuark) | trace of the diagram as a scalar function, rotation on axes, angular integrals, radial primitive with the square root of s(s+4m²), asymptotics; derivative in the mass of the closed form |
| C88 | QCD gluon functions with field configurations and with globals after any history of setters (Model/Qcd, Model/ThermalDressing, Model/Consts) | induction on the list of quarks from C86 and C87; C83, C84 for the thermal parts; C02 for the ratio of the globals; C21 for real and complex arguments; the thermal statements need the number of colours of the configuration to be the global one (C31) |
| C89 | the gauge-dependent vacuum functions (Model/Vacuum, Model/Qcd); the specification of the diagrams is Spec/Covariant | the traces in closed form (Lemmas/CovariantTrace), angular integrals (Lemmas/CovariantAngle), radial integrals and their asymptotic expansion (Lemmas/CovariantRadial), difference from the Landau gauge added to C86 |
| C90 | the zero-momentum thermal functions and dressings (Model/Thermal, Model/ThermalIntegrals, Model/ThermalDressing); specification Spec/Insertions, Spec/GluonSum | mass derivatives under the integral at zero momentum (Props/MassIntegralZero), assembly as in C83 (Props/IntegratedDiagramsZero), vacuum part from C85, C86, C88 with a common constant (Props/ZeroMomentumDiagrams) |
| C91 | the zero-frequency wrappers with the regulator as a field of the configuration (Model/ThermalIntegrals, Model/Consts); specification Spec/QuarkDiagram | both lines on shell combined over their common denominator, dominated convergence with a majorant from the variation of the occupation between the two energies (Lemmas/StaticLimit, Lemmas/StaticOccupation), residues of the static loop (Lemmas/StaticSum); Props/StaticQuark |
| C92 | `main` with the propagators of the library (Model/Scans: `program`); specification Spec/Scans | file names of different families differ, so reads commute with later writes; C67 for each call (Props/ScansRun) |
| C93 | all functions of Model/ThermalDressing and Model/ThermalIntegrals with a complex frequency; specification Spec/Analytic | uniform bounds on compact sets of frequencies and differentiation under the integral sign (Lemmas/Holomorphic*), reflection by the identity theorem on each half plane, closure rules, C19/C20 for the vacuum part (Props/ThermalComplex) |
| C94 | the whole program except printing and drawing (Model/ExamplePoles); specification Spec/Poles: residue in a variable and in its square, the table of parameters | soundness of the root search (C07, C08), symmetry and holomorphy of the inverse dressing function (C93, C19), limits of difference quotients, induction over the table (Props/ExamplePoles) |
| C95 | the whole program except drawing (Model/ExampleHtl); specification Spec/HardThermalLoop | C75 (limit of the loop), elementary bound of the arc tangent, C97 (imaginary parts), evaluation of the grid (Props/ExampleHtl) |
| C96 | the whole program except printing and drawing (Model/ExamplePropagator); specification Spec/YmPropagators: table of parameters, normalisation, momenta | evaluation of the loops against the table, C97 (Props/ExamplePropagator) |
| C97 | ThermalDressing, ThermalIntegrals at T = real and T = complex | integrands agree at real frequencies (Lemmas/ThermalToC), vacuum functions agree (C21), reflection symmetry of C93 (Props/ThermalReal) |
| C98 | ThermalParts, ThermalIntegrals, ThermalDressing against Spec/HardThermalLoop | each integrand scaled by q = y/b is dominated uniformly in b (Lemmas/HtlBose, HtlLeg, HtlTadpole, HtlParts); limits added up in Lemmas/HtlGlue (Props/HotGluon) |
| C99 | ThermalParts, ThermalIntegrals, ThermalDressing against Spec/HardThermalLoop | momentum scaled by the chemical potential, the distribution tends to a step (Lemmas/HardDense), kernels of C75 (Props/DenseGluon) |
| C100 | ExampleAsymptotics (state of the constants threaded through the run) | limits of C98 and C99, bounds on pi and e (Props/ExampleAsymptotics) |
| C101 | ChargeDensity | dominated convergence and moments of the Fermi distribution (Lemmas/QuarkDensity), intermediate value theorem (Props/QuarkDensity) |
| C102 | ExamplePlots | C50, C51, C52, C101 on the grids; induction over the temperatures for the panics (Props/ExampleDensity) |
| C103 | ExamplePlots, Spec/ExamplePlots | C97, C37 for reality; C72, C48, C40 for the limits (Props/ExampleGluon) |
| C104 | ExamplePlots (state: constants, plot index, files, curves), Spec/ExamplePlots | symbolic run; C25 for the constant (Props/ExampleCompare) |
| C105 | Numerics (tests/numerics.py function by function), Vacuum, Thermal* | normal forms of both sides, then field algebra; for the vacuum, arguments of the square roots (Lemmas/NumericsVacuum); C35 for the special versions, C41 for zero frequency (Props/Numerics, NumericsParts, NumericsVacuum) |
| C106 | Scripts (loop over the lines with exceptions), Spec/Scripts | induction on the file; the inverse dressing function is affine in f0 (Props/Scripts) |
| C107 | Vacuum, Qcd | the variable s = (1-x)^2/x makes the square root rational; the coefficient of the ultraviolet logarithm and the remainder become polynomials with positive Bernstein coefficients (Lemmas/Euclidean); derivative for the ghost; Jensen's inequality in the Feynman integral of C61 for the quarks; intermediate values for the poles (Props/Euclidean, EuclideanQuarks) |
| C108 | Thermal, ThermalParts over numbers that may be undefined (PartialNum, ThermalPartial) | an undefined result propagates through all operations; for a frequency off the imaginary axis the quadratic forms in the denominators and logarithms do not vanish, by their imaginary part; one lemma per function, in order of calls (Lemmas/PartialNum, ThermalDefined; Props/ThermalDefined) |
| C109 | Vacuum and Qcd read over numbers that may be undefined; ThermalIntegrals, ThermalDressing copied to them by tools/partial_dressing.py (PartialIntegrator, DressingPartial) | the integrator is a parameter with a law (it reads the integrand strictly inside the interval), met by every interior quadrature rule; the integrands are defined by C108; the arguments of the vacuum functions are off the negative axis; one lemma per function, in order of calls (Lemmas/VacuumPartial, DressingDefined; Props/DressingDefined); the exceptions are proved as negations |
| C110 | Build (regular expressions, replacement, files) | the expressions are matched by a function on lists of characters, sound and complete for the set of declarations; a declaration ends with its only semicolon and has an angle bracket, the replacement has a bracket or colon before its first semicolon and no angle bracket, so none can straddle it (Lemmas/Build; Props/Build) |
| C111 | Floats (numbers with infinities, NaN and zeros, operations with an arbitrary rounding, fused multiplication and addition), Binary64 (the rounding of f64) | each operation is monotone with its limits; the rounding of f64 is proved monotone and nearest; for the Fermi momentum neighbouring numbers are a unit in the last place apart, which is more than the rounding error of the square unless it underflows (Lemmas/Floats, Binary64; Props/Floats) |
| C112 | the floating-point functions of C111; `Accurate r u` states the standard model of rounding errors, met by the `binary64` of C111 | each operation contributes a factor 1+d, d at most u in absolute value; the factors are collected through the square root, the exponential and the reciprocal |
| C113 | `compute_residue` of the model read over the numbers of C111 (`Fl binary64`), and over complex numbers with such components (Model/ComplexFloats.lean; operations of the crate `num`) | spacing of the numbers of f64 beyond 2^14 and nearest rounding; a number minus itself is zero or NaN |
| C114 | the vacuum functions of the model (written for any type with the operations) read over the numbers of C111 (`Fl binary64`) | intervals for the result of each operation, with the error of one rounding (Lemmas/SmallMomenta.lean); exact bounds from the representation of C107 |
| C115 | the vacuum functions of the model read over `Fl binary64` (as C114); scales in Spec/VacuumAccuracy.lean | running error bounds: each operation adds to the number of roundings, relative to the sum of absolute values (Lemmas/RunningError.lean); lower bounds of C107 for the inverses |
| C116 | ChargeDensity, Utils (exact integrator) | the density is flat below the mass (Lipschitz constant of order b e^(-b d)) and cubic at large chemical potentials; the secant iteration cycles: two points near n, one going to infinity, back near n (Lemmas/SecantFailure, DensitySearch) |
| C117 | thermal functions of C72 with the exact integrator; `Spec.Positive` (a complex number that is a positive real) | limits of C72 to the vacuum functions, their positivity (C107), and the vanishing of the imaginary part at finite temperature (C97) |
| C118 | `find_root` over the record of operations `RootOps`, instance `floatOps` for numbers with rounding, infinities, NaN and two zeros; `Strict`, `secantPoint`, `secantScale` in Spec/FloatRoot | case analysis of the rounded operations (non-finite operands stay non-finite, quotients of them are NaN), running error analysis of one step |
| C119 | the two functions over numbers with rounding, infinities, NaN and two zeros (Model/FloatDensity); `powf` is a parameter with the law `PowAccurate`; exact formulas in Spec/FloatDensity | relative errors of each operation; logarithmic derivative of the power; the rounding of f64 is odd, so are products and quotients |
| C120 | the functions over numbers with rounding, infinities, NaN and two zeros (Model/FloatTc), `parametric_phase_diagram` and `reduce_phase_boundary` are the generic ones of Model/TcLongProp | comparisons are exact, running error analysis of the interpolation; induction over the boundary and over the coefficients |
| C121 | evaluations as programs that read and write one static at a time, a scan as a slot for each item, threads as arbitrary interleaving (Model/Parallel); the integrator as any deterministic algorithm that asks for values of the integrand | invariant over the steps of a schedule, count of the steps left; explicit schedules for the failures |
| C122 | the functions of C113 with the roundings of binary64 (Model/ComplexFloats, Model/Floats) | relative error of each operation; sums without cancellation; the rounded points from the grid of the binade |
| C123 | charge_density_i and the integrand with the roundings of binary64 (Model/FloatThermalDensity); the quadrature of peroxide is a parameter | every rounded operation is monotone and odd; running errors of C112 and C115; absorption of a small summand in a binade |
| C124 | `FieldConfig` and the gluon functions over a type `F` of numbers that also computes the configuration (Model/FloatConfig.lean); for `F = ℝ` they agree with the exact model | running error bounds through every operation, induction on the list of quarks; infinities through the operations for very light quarks; C107 for the lower bound of the inverse dressing function |
| C125 | the instances of the vacuum functions for `T = C`, operation by operation on pairs of floating-point numbers with signed zeros (Model/ComplexVacuum.lean) | running error bounds through complex sums, products, quotients, roots and logarithms, for arguments up to 135 degrees from the positive axis; values of the operations independent of the signs of zeros, hence symmetric under conjugation off the cut; evaluation of `atan2` and `sqrt` on the cut |
| C126 | the instances for `T = C` of Model/ComplexVacuum.lean, with dressing functions and propagators, and the spectral function of Model/ComplexFloats.lean | power-of-two bounds for sizes and for the distance from the real axis through every operation, exact symmetry of every operation under conjugation away from the cut |
| C127 | the instances for `T = C` of qcd/gluon.rs (Model/ComplexQcd.lean), with the configuration computed in `f64` (Model/FloatConfig.lean) | the lemmas of C126 at the computed arguments of the loops, induction on the list of quarks; sums of n terms are bounded by multiples of a power of two, which are exact; running errors of complex numbers (C125) for the accuracy. The theorem is of mixed type: the argument of each loop is perturbed by its own division, and the loop is accurate at the perturbed argument (`C127_sums`: at the exact arguments the sums are the exact functions) |
| C128 | the real instances of the eighteen functions; the accuracy of the second derivatives d2_j_m_i, d2_j_0_i, d2_j_m_l_i and d2_j_0_l_i is not treated (Model/FloatTadpoles.lean), with `energy` and the Bose distribution of Model/Floats.lean | roundings are monotone, so the monotone Bose distribution (C111) times positive factors is monotone, also at infinity; relative errors of products and quotients with the bounds of C112; the shift of the distribution by the error of the energy; the square root of a rounded square is closer to the number than half a unit in the last place |

## 3. Where the code does not do what one expects

The theorem listed proves the deviation for the model; the property text in
`properties.jsonl` states what holds instead.

| id | deviation | theorem |
|---|---|---|
| C04 | setters of `nf`, `nc` race: the cached ratio can end up belonging to neither state | `C04_race`, `C04_torn_read` |
| C06 | at zero Matsubara frequency the default tolerance is always replaced by 1e-8: `set_default_tol_integral` is ignored | `C06_default_method`, `C06_tolerance_ignored` |
| C15 | on the Fermi surface the zero-temperature distribution returns 1, the limit is 1/2 | `C15_fermi_surface` |
| C31 | thermal `*_w_field_config` functions use the global number of colours for the quark loop, not the one of the configuration | `C31_violation`, `C31_violation_reachable` |
| C32 | assigning the public fields of `FieldConfig` leaves the cache stale | `C32_stale`, `C32_stale_wrong` |
| C56 | on a plateau of the phase boundary a point of the boundary is reported deconfined | `C56_plateau` |
| C59 | assigning the public field `correctedfieldconfig` makes the next lookup panic; a caught panic of the setter leaves an inconsistent state | `C59_public_field`, `C59_set_panics_iff` |
| C67 | temperatures that agree to four decimals share one file | `C67_collision` |
| C69 | the "corrected" fit parameters are those of the boundary without correction | `C69_fit_not_of_corrected` |
| C74 | the zero-frequency ghost self-energy integrates over a pole without a prescription; C46 for this function is an equality with a Lebesgue integral that does not exist (0 by Mathlib's convention) | `C74_pole`, `C74_not_integrable`, `C74_not_integrable_compactified` |
| C108 | the integrands for zero Matsubara frequency divide by zero at `q = p/2` and `2qp = \|p^2 ± m^2\|` | `C108_zero_matsubara_poles` |
| C109 | with a rule that reads the middle of the interval (all Gauss-Kronrod rules) the ghost functions at zero Matsubara frequency are undefined at `p = 2`, for all masses and temperatures | `C109_zero_matsubara_ghost_at_two` |
| C109 | at zero temperature the guard is `mu.abs() < mq.abs()`: at `\|mu\| = \|mq\|` the integrand is read at `q = 0` and divides by zero, although the part is zero below the threshold | `C109_threshold_undefined` |
| C109 | massless quarks: the vacuum part divides by the quark mass | `C109_massless_quark_undefined` |
| C111 | `fermi_momentum` computes `mu*mu` exactly and `m*m` rounded (`mu.mul_add(mu, -(m * m))`): with f64 it is NaN at `\|mu\| = \|m\|` whenever `m*m` rounds upwards (0.1, 0.2, 0.3, 0.4 …). The functions at zero temperature are guarded by `mu.abs() < mq.abs()` and then integrate from 0 to NaN. (`charge_density_zero_temp` is guarded by `<=` and is not affected.) | `C111_fermi_momentum_threshold`, `C111_fermi_momentum_tenth` |
| C111 | the Bose distribution subtracts 1 from a rounded exponential: +∞ for `beta * en` below about 1e-16, where the exact value is finite | `C111_bose_infinite`, `C111_bose_small_energy` |
| C111 | at zero temperature a NaN energy counts as occupied (1) | `C111_fermi_zero_temp` |
| C113 | the step 1e-12 of `compute_residue` is absolute: at real part beyond 16384 (e.g. momenta in MeV) it is lost in rounding and the result is NaN (or +∞) for every function | `C113_points`, `C113_real`, `C113_complex`, `C113_units` |
| C114 | the infrared limits of C24 fail in f64 below p² = 2^-53 m²: the ghost dressing function goes to zero as 12 s, the gluon propagator as 18 s (it is negative in the Feynman gauge) | `C114_ghost`, `C114_ghost_exact`, `C114_gluon`, `C114_gluon_exact` |
| C116 | `chemical_potential` panics at low temperatures for densities between the tolerance and the mass, and returns the density itself for smaller ones: the guesses `n/2` and `n` are not near the solution (which is above the mass) and the tolerance of the density is absolute | `C116_panics`, `C116_small`, `C116_default` |
| C118 | in f64 the root finder panics at a flat step (equal values of the objective), where the slope is a division by zero, and when the product in the secant formula overflows: the next point is NaN or infinite and no later point is finite | `C118_flat`, `C118_overflow`, `C118_not_finite` |
| C119 | in f64 the round trip between density and chemical potential at zero temperature fails for small densities: the chemical potential is rounded to the mass | `C119_lost` |
| C120 | a NaN chemical potential is in the deconfined phase; a grid with a zero step panics (the number of points saturates) | `C120_phase_nan`, `C120_grid_zero_step` |
| C121 | a setter called on another thread during an evaluation: the density can belong to no number of colours; items that set their own number of colours get each other's (build.rs l.16 documents the lack of thread safety) | `C121_torn`, `C121_wrong_colors` |
| C122 | the default step 1e-12 of compute_residue is rounded with the pole: relative accuracy about 1e-4 for poles of order one, 45% error at 10000 | `C122_accuracy`, `C122_loss` |
| C123 | the integrand of the charge density is NaN for points of integration up to 2^-513 (infinity times zero); a chemical potential below 2^-54 of the mass is lost: the result is that of zero chemical potential | `C123_nan`, `C123_absorbed`, `C123_lost` |
| C124 | the chiral limit cannot be taken: a quark with squared mass below 2^-56 of the squared momentum makes the computed inverse dressing function minus infinity and the propagator zero | `C124_very_light`, `C124_chiral_limit` |
| C125 | the sign of a zero imaginary part chooses the side of the cut: `-(x + 0i)` and `(-x) + 0i` compare equal, but the values of the functions have opposite imaginary parts | `C125_cut`, `C125_cut_sqrt`, `C125_negation` |
| C128 | at very small momenta the massless tadpole integrands are infinite although the exact ones are bounded, and at zero momentum they are NaN; at very small momenta two second derivatives are infinite with the wrong sign | `C128_infinite`, `C128_zero`, `C128_wrong_sign` |

Not deviations, but limits of what C72 and C73 say: the frequency is real and non-zero (or the
regulator is), because at zero frequency the integrands have poles on the axis of integration
(C74). At `p = 0` the general functions divide by zero, which is 0 in Lean; the functions for
zero momentum are the ones to read there (C40 connects them).

## 4. Trusted base

* Lean 4.33.0 kernel; axioms `propext`, `Classical.choice`, `Quot.sound` only (no axiom is
  added, no proof is left open, no compiled evaluation is used).
* Mathlib definitions of ℝ, ℂ, log, exp, sqrt, derivative, limit, integral.
* The transcription of the Rust code into `Model/`: each definition cites file and lines.
  Thermal, ThermalParts, ThermalIntegrals, ThermalDressing and their copies over numbers that
  may be undefined (ThermalPartial, DressingPartial) were produced by the scripts
  in `tools/`, which only translate syntax; the rest was transcribed by hand.
* For C111: that the operations of `f64` are those of `Fl binary64` (IEEE 754: round to nearest, ties to even; the definition of
  the rounding is proved to be the nearest number), and that the exponential of the mathematical library is monotone, non-negative and 1 at 0
  (law of `Rounding`). For the accuracies in f64 of C112: that the exponential is correctly rounded. For C114 and C115: that the square root and the logarithm are correctly rounded (used in C114: the logarithm of 1 is 0; elsewhere an error of 10^-15 is enough). For C125: that `hypot`, `atan2`, `cos` and `sin` are correctly rounded, and that the complex operations are the formulas of the crate `num` written in Model/ComplexVacuum and Model/ComplexFloats. For C119: that `powf` has a relative error of at most 2^-52 (hypothesis `PowAccurate`), and that the square root is correctly rounded. For C113: the operations of `num::Complex<f64>` as
  written in Model/ComplexFloats.lean.
* Elsewhere, exact-arithmetic reading of `f64` as described above; where control flow over floats
  matters (consts, `find_root`, `find_critical_temperature`) the theorems hold for every
  type with the operations named, IEEE included.
* External code as parameters, with laws stated as hypotheses where a theorem needs them:
  - the integrator of peroxide (`Integrator`; laws `Interior`, `Conj`, `Odd`, `Zero`,
    `Homogeneous`, or equality with the exact integral `Integrator.exact`); for integrands that may
    be undefined `PIntegrator`, with laws about where it reads the integrand;
  - the optimiser (`fit`), about which nothing is assumed;
  - the format `{:.4}` (`Spec.FourDecimals`).
* Axioms of each theorem: listed one by one in `AXIOMS.txt` (the output of Lean's `collectAxioms`);
  898 use the three above, 3 use only `propext` and `Quot.sound`.
