{"id": "C01", "title": "Constant getters return the last accepted value", "statement": "After any sequence of calls to the consts setters (including calls that panic), each getter nc(), nf(), m_quark(), tol_integral(), max_iter_integral(), matsubara_reg() returns the argument of the last setter call for that constant that did not panic, or the compiled-in default (3, 1, 0.5, 1e-10, 50, 1e-5) if there was none; a setter never changes another constant.", "quantifier": "all finite sequences of setter calls with arbitrary arguments (NaN and infinities included)", "why_tests_cant": "histories are unbounded; a test runs a handful of setter sequences", "anchors": ["qcd-sme/src/consts.rs: set_number_of_colors, set_number_of_fermions, set_default_quark_mass, set_default_tol_integral, set_default_max_iter_integral, set_matsubara_reg and the getters"]}
{"id": "C02", "title": "The cached flavour/colour ratio never goes stale", "statement": "After any sequential history of setter calls, the ratio by which qcd::gluon functions weight the quark loop equals nf()/nc() for the current nf() and nc().", "quantifier": "all finite sequences of setter calls", "why_tests_cant": "the ratio is a second static that two setters must both refresh; only an induction over histories settles it", "anchors": ["qcd-sme/src/consts.rs: NF_DIV_NC, set_number_of_colors, set_number_of_fermions, nf_div_nc", "qcd-sme/src/qcd/gluon.rs: dressing_inv_landau"]}
{"id": "C03", "title": "Rejected settings leave the configuration intact and tolerances stay positive", "statement": "set_default_tol_integral and set_matsubara_reg panic exactly when their argument is not > 0 (NaN included) and then leave every constant unchanged; hence tol_integral() > 0 and matsubara_reg() > 0 at every point of every history. The other setters never panic.", "quantifier": "all histories of setter calls, all arguments including NaN", "why_tests_cant": "requires an invariant over all histories and the whole float range", "anchors": ["qcd-sme/src/consts.rs: set_default_tol_integral, set_matsubara_reg"]}
{"id": "C04", "title": "Unsynchronised setters can corrupt the ratio; serialised ones cannot", "statement": "If set_number_of_colors and set_number_of_fermions run on two threads with no synchronisation, there is an interleaving of their individual static reads and writes after which the ratio differs from nf()/nc() although both calls returned (this is the documented lack of thread safety); under every interleaving in which setter calls are mutually exclusive the ratio is right whenever no setter is running.", "quantifier": "all interleavings of the memory accesses of any number of setter calls", "why_tests_cant": "a race shows up only under particular schedules", "anchors": ["qcd-sme/src/consts.rs: module documentation, set_number_of_colors, set_number_of_fermions"]}
{"id": "C05", "title": "The default integration method follows the last accepted tolerance and iteration limit", "statement": "get_default_integration_method() always returns the adaptive 7-15 Gauss-Kronrod rule with the current tol_integral() and max_iter_integral().", "quantifier": "all histories of setter calls", "why_tests_cant": "depends on the whole history of setter calls", "anchors": ["qcd-sme/src/consts.rs: get_default_integration_method"]}
{"id": "C06", "title": "A customised default tolerance is (not) honoured at zero Matsubara frequency", "statement": "The comment in thermal::gluon::zero_matsubara says the tolerance is raised to 1e-8 unless the user customised the integration method. In fact, after every history of setter calls, the default-method polarization functions at zero Matsubara frequency integrate with tolerance 1e-8: a user's set_default_tol_integral is silently ignored there.", "quantifier": "all histories of setter calls, all integrators, all arguments", "why_tests_cant": "a test compares numbers at one tolerance; the claim is about which method is passed on for every configuration", "anchors": ["qcd-sme/src/low_level/oneloop/thermal/gluon.rs: zero_matsubara::polarization_glue_l_thermal_part_landau and siblings"]}
{"id": "C07", "title": "Root finder soundness", "statement": "Whenever find_root returns Some((z, fz)), fz is the value f(z) and |fz| < tol.", "quantifier": "all functions f, all guesses, tolerances and iteration limits; real and complex; any floating-point arithmetic", "why_tests_cant": "ranges over all functions and all iteration histories", "anchors": ["qcd-sme/src/utils.rs: find_root"]}
{"id": "C08", "title": "Root finder fails closed", "statement": "find_root panics exactly when the two guesses are equal or tol is not positive; otherwise it terminates and returns None as soon as f evaluates to NaN at the iterate under test, and None when max_iter iterates have been tested without success (in particular always for max_iter = 0, even if a guess is a root).", "quantifier": "all functions, guesses, tolerances, iteration limits", "why_tests_cant": "the set of failing functions is infinite", "anchors": ["qcd-sme/src/utils.rs: find_root"]}
{"id": "C09", "title": "Root finder evaluation budget", "statement": "find_root evaluates f at most max_iter + 2 times, and only at the two guesses and at secant iterates.", "quantifier": "all functions, guesses, tolerances, iteration limits", "why_tests_cant": "cost bound over all functions", "anchors": ["qcd-sme/src/utils.rs: find_root"]}
{"id": "C10", "title": "Root finder is exact on affine functions", "statement": "In exact arithmetic, for f(z) = a z + b with a != 0, distinct guesses, tol > 0 and max_iter >= 2, find_root returns Some; the point it returns is the root -b/a or the second guess if that guess already satisfies the tolerance.", "quantifier": "all affine functions over the reals and the complex numbers, all distinct guesses", "why_tests_cant": "infinite family of functions and starting points", "anchors": ["qcd-sme/src/utils.rs: find_root"]}
{"id": "C11", "title": "Residue of a simple pole", "statement": "compute_residue_with_eps is exact (equals r) for f(z) = r/(z - z0) evaluated at z0 for every eps != 0, and for f = g/(z - z0) with g continuous and nonzero at z0 it converges to g(z0) as eps -> 0.", "quantifier": "all residues, all pole positions, all eps; all continuous numerators", "why_tests_cant": "limit statement over a function space", "anchors": ["qcd-sme/src/utils.rs: compute_residue_with_eps, compute_residue"]}
{"id": "C12", "title": "Spectral function of a reflection-symmetric function is real", "statement": "If f(conj z) = conj f(z) then spectral_function_with_eps(f, x, eps) at real x has zero imaginary part and equals -Im f(x + i eps)/pi; for f with equal values above and below the axis it is 0; for f(z) = r/(z - x0) it is the Lorentzian of width eps, whose integral over the real axis is r. spectral_function is the same with eps = 1e-12.", "quantifier": "all reflection-symmetric complex functions, all real x, all eps", "why_tests_cant": "ranges over a function space", "anchors": ["qcd-sme/src/utils.rs: spectral_function_with_eps, spectral_function"]}
{"id": "C13", "title": "Fermi-Dirac distribution: bounds, monotonicity, particle-hole symmetry", "statement": "For real arguments fermi_distribution lies strictly between 0 and 1, is strictly decreasing in energy and strictly increasing in chemical potential for beta > 0, and n(en, mu) + n(-en, -mu) = 1.", "quantifier": "all real energies, chemical potentials and inverse temperatures", "why_tests_cant": "inequalities over the continuum", "anchors": ["qcd-sme/src/common/thermal.rs: fermi_distribution"]}
{"id": "C14", "title": "Doubled and zero-chemical-potential distributions are consistent", "statement": "fermi_distribution_double is the sum of the particle and antiparticle distributions, is unchanged by mu -> -mu, and at mu = 0 is twice fermi_distribution_zero_chempot, which is fermi_distribution at mu = 0; bose_distribution_zero_chempot is bose_distribution at mu = 0; the same holds for the zero-temperature variants.", "quantifier": "all real or complex energies, chemical potentials, inverse temperatures", "why_tests_cant": "identity over the continuum, real and complex", "anchors": ["qcd-sme/src/common/thermal.rs: fermi_distribution_double, fermi_distribution_zero_chempot, fermi_distribution_double_zero_temp, bose_distribution_zero_chempot"]}
{"id": "C15", "title": "Zero-temperature distributions are the zero-temperature limits", "statement": "As beta -> +infinity fermi_distribution(en, beta, mu) tends to fermi_distribution_zero_temp(en, mu) for every en != mu; at en = mu the limit is 1/2 while the zero-temperature function returns 1. The doubled version likewise, away from en = |mu|. bose_distribution tends to 0 for en > mu.", "quantifier": "all real energies and chemical potentials", "why_tests_cant": "limit statement", "anchors": ["qcd-sme/src/common/thermal.rs: fermi_distribution_zero_temp, fermi_distribution_double_zero_temp, bose_distribution"]}
{"id": "C16", "title": "Bose-Einstein distribution: positivity, monotonicity, reflection", "statement": "For beta > 0 and en > mu bose_distribution is positive and strictly decreasing in energy, and 1 + n(en, mu) + n(-en, -mu) = 0 away from the pole en = mu.", "quantifier": "all real energies above the chemical potential", "why_tests_cant": "inequalities over the continuum", "anchors": ["qcd-sme/src/common/thermal.rs: bose_distribution"]}
{"id": "C17", "title": "Separated-logarithm variants agree with the plain ones; Landau gauge is xi = 0; dependence on xi and the renormalisation constant is affine", "statement": "Passing ln s and ln(s+1) to the *_sep functions reproduces the plain functions; dressing_inv at xi = 0 is dressing_inv_landau; changing f0/g0 by c shifts the inverse dressing by exactly c; changing xi by d shifts it by d times f_xi/g_xi.", "quantifier": "all real or complex s, all f0, g0, xi, for ghost, gluon, QCD gluon and the crossed variants", "why_tests_cant": "identities over the continuum for a family of functions", "anchors": ["qcd-sme/src/low_level/oneloop/ghost.rs", "qcd-sme/src/low_level/oneloop/gluon.rs", "qcd-sme/src/ym/ghost.rs", "qcd-sme/src/ym/gluon.rs", "qcd-sme/src/qcd/gluon.rs"]}
{"id": "C18", "title": "Dressing, inverse dressing and propagator are consistent", "statement": "dressing * dressing_inv = 1 and propagator * s * dressing_inv = 1 whenever s and the inverse dressing are nonzero, for ghost and gluon, YM and QCD, plain, crossed and field-config variants.", "quantifier": "all real or complex s and parameters with nonzero inverse dressing", "why_tests_cant": "identity over the continuum for a family of functions", "anchors": ["qcd-sme/src/ym/ghost.rs", "qcd-sme/src/ym/gluon.rs", "qcd-sme/src/qcd/gluon.rs"]}
{"id": "C19", "title": "Schwarz reflection in the cut plane", "statement": "For complex s off the negative real axis (and s != 0), every vacuum function (f, f_xi, f_q, f_q_crossed, g, g_xi, dressings, propagators) satisfies F(conj s) = conj F(s).", "quantifier": "all complex s in the cut plane, all real parameters", "why_tests_cant": "continuum of complex arguments", "anchors": ["qcd-sme/src/low_level/oneloop/gluon.rs", "qcd-sme/src/low_level/oneloop/ghost.rs", "qcd-sme/src/qcd/gluon.rs"]}
{"id": "C20", "title": "Holomorphy in the cut plane", "statement": "On the complex plane cut along the negative real axis the functions f, f_xi, f_q, f_q_crossed, g, g_xi and the inverse dressings are complex differentiable: no spurious branch cut of the intermediate logarithms and square roots is crossed.", "quantifier": "all complex s in the cut plane", "why_tests_cant": "a branch-cut crossing is invisible at sample points", "anchors": ["qcd-sme/src/low_level/oneloop/gluon.rs: l_a, f_q, f_q_crossed", "qcd-sme/src/low_level/oneloop/ghost.rs"]}
{"id": "C21", "title": "Real and complex entry points agree", "statement": "For real s > 0 calling a vacuum function with a real argument or with the same number as a complex argument gives the same result.", "quantifier": "all s > 0 and real parameters", "why_tests_cant": "generic code instantiated twice; agreement over the continuum", "anchors": ["qcd-sme/src/types.rs: Num", "qcd-sme/src/low_level/oneloop/gluon.rs", "qcd-sme/src/low_level/oneloop/ghost.rs"]}
{"id": "C22", "title": "Quark loop normalisation f_q(0) = 0 = f_q_crossed(0)", "statement": "f_q(s) and f_q_crossed(s) tend to 0 as s -> 0+, as their comments promise, although the formulas contain 1/s and 1/s^2 terms.", "quantifier": "limit over real s > 0", "why_tests_cant": "0/0 cancellation in a limit; floating-point tests near 0 lose all digits", "anchors": ["qcd-sme/src/low_level/oneloop/gluon.rs: f_q, f_q_crossed"]}
{"id": "C23", "title": "Crossed quark loop is the derivative combination", "statement": "f_q_crossed(s) = f_q(s) + 2 s f_q'(s) for every s > 0 (and in the complex cut plane); the 'constant' mentioned in the comment is 0.", "quantifier": "all s > 0, all complex s off the negative real axis", "why_tests_cant": "identity between a function and a derivative over the continuum", "anchors": ["qcd-sme/src/low_level/oneloop/gluon.rs: f_q, f_q_crossed"]}
{"id": "C24", "title": "Infrared saturation (dynamical mass)", "statement": "As s -> 0+, s * f(s) -> 5/8 and s f_xi(s) -> 1/4, so the Landau-gauge gluon propagator tends to 8/5 (in units of the mass parameter) whatever f0, in Yang-Mills and in QCD with any quark content; g(s) -> 5/24, so the ghost dressing tends to 1/(g0 + 5/24).", "quantifier": "all f0, g0, all quark contents; limit over s > 0", "why_tests_cant": "limit with heavy cancellation", "anchors": ["qcd-sme/src/ym/gluon.rs: propagator_landau", "qcd-sme/src/ym/ghost.rs: dressing_landau", "qcd-sme/src/low_level/oneloop/gluon.rs: f"]}
{"id": "C25", "title": "Ultraviolet logarithms", "statement": "As s -> +infinity f(s)/ln s -> 13/18, g(s)/ln s -> 1/4, f_q(s)/ln s -> -2/9, more precisely f - (13/18) ln s -> 17/18, g(s) - (1/4) ln s -> 1/3, f_q(s) + (2/9) ln s -> 10/27: one-loop coefficients of the standard expansion. With any quark content the inverse gluon dressing behaves as (13/18 - xi/6 - (2/9) sum nf/nc) ln s plus a constant fixed by f0, xi and the quark masses.", "quantifier": "limit over real s", "why_tests_cant": "asymptotic statement; cancellation of s^2 ln s terms", "anchors": ["qcd-sme/src/low_level/oneloop/gluon.rs: f, f_q", "qcd-sme/src/low_level/oneloop/ghost.rs: g"]}
{"id": "C26", "title": "Vacuum functions are finite for every positive momentum", "statement": "For s > 0 (and quark masses nonzero) evaluating f, f_xi, f_q, f_q_crossed, g, g_xi and the inverse dressings performs no division by zero, no logarithm of a non-positive number and no square root of a negative number.", "quantifier": "all s > 0 and real parameters", "why_tests_cant": "definedness over the continuum", "anchors": ["qcd-sme/src/low_level/oneloop/gluon.rs", "qcd-sme/src/low_level/oneloop/ghost.rs", "qcd-sme/src/qcd/gluon.rs"]}
{"id": "C27", "title": "QCD reduces to Yang-Mills without quarks", "statement": "With nf() = 0, or with a field configuration whose quark list is empty or contains only zero-flavour entries, every QCD gluon function equals its Yang-Mills counterpart.", "quantifier": "all real or complex s, masses, parameters, constants", "why_tests_cant": "identity over the continuum and over configurations", "anchors": ["qcd-sme/src/qcd/gluon.rs", "qcd-sme/src/qcd/types.rs", "qcd-sme/src/ym/gluon.rs"]}
{"id": "C28", "title": "Global-constant and field-configuration interfaces agree", "statement": "For FieldConfig::new(nc, m, [(nf, mq)]) with nc, nf equal to the global constants, the *_w_field_config gluon functions equal the single-mass functions called with quark mass mq/m.", "quantifier": "all s, masses, nc, nf, f0, xi", "why_tests_cant": "identity over the continuum", "anchors": ["qcd-sme/src/qcd/gluon.rs", "qcd-sme/src/qcd/types.rs: FieldConfig::new"]}
{"id": "C29", "title": "Quark list semantics", "statement": "Results of the field-configuration functions do not depend on the order of the quark list, are unchanged by splitting an entry (a+b, m) into (a, m), (b, m), and an entry with nf = 0 is irrelevant; inverse dressings are additive in the quark list.", "quantifier": "all finite quark lists, all permutations", "why_tests_cant": "lists are unbounded", "anchors": ["qcd-sme/src/qcd/types.rs", "qcd-sme/src/qcd/gluon.rs: *_w_field_config", "qcd-sme/src/qcd/thermal.rs: *_w_field_config"]}
{"id": "C30", "title": "Vacuum field-configuration functions ignore the globals", "statement": "The vacuum *_w_field_config functions return the same value whatever the global constants are, hence under any concurrent activity of setters.", "quantifier": "all states of the global constants, all configurations and momenta", "why_tests_cant": "non-interference over all states and schedules", "anchors": ["qcd-sme/src/qcd/gluon.rs: *_w_field_config", "qcd-sme/src/consts.rs: module documentation"]}
{"id": "C31", "title": "Thermal field-configuration functions depend on the global number of colours", "statement": "Documented expectation: *_w_field_config results depend on the configuration only. The thermal gluon functions violate it: their quark part uses the global nc(), so two global states with different nc give different results for the same configuration; they are right exactly in proportion config.nc/nc(), in particular whenever the global nc equals config.nc, or there are no quarks.", "quantifier": "all configurations, global states, integrators", "why_tests_cant": "non-interference over all states", "anchors": ["qcd-sme/src/qcd/thermal.rs: gluon::dressing_l_inv_landau_w_field_config", "qcd-sme/src/low_level/oneloop/thermal/gluon.rs: inlines::polarization_quark_l_thermal_part_landau_i", "qcd-sme/build.rs"]}
{"id": "C32", "title": "A FieldConfig caches derived data at construction", "statement": "A FieldConfig built by new satisfies: each cached entry has flavour number, mass, nf/nc and (mq/m)^2 of the corresponding quark. Assigning to the public fields nc, gluon or quarks afterwards does not refresh the cache: results keep using the old nc and quark list (and, for the gluon mass, mix new and old values).", "quantifier": "all configurations and all field updates", "why_tests_cant": "invariant over all constructions plus a counterexample history", "anchors": ["qcd-sme/src/qcd/types.rs: FieldConfig, QuarkInternal"]}
{"id": "C33", "title": "Thermal integrands: real and complex entry points agree", "statement": "Calling a thermal integrand with any mixture of real and complex frequency and masses equals calling it with all of them complex.", "quantifier": "all real/complex instantiations of the generic arguments, all values", "why_tests_cant": "generic code with several type parameters", "anchors": ["qcd-sme/src/low_level/oneloop/thermal/mod.rs: inlines", "qcd-sme/src/low_level/oneloop/thermal/zero_momentum.rs", "qcd-sme/src/low_level/oneloop/thermal/gluon.rs"]}
{"id": "C34", "title": "Exchange symmetry of the two-mass thermal integrands", "statement": "i_m_m_i, i_m_m_l_i and i_m_m_t_i are unchanged when the two masses are exchanged.", "quantifier": "all momenta, frequencies, masses, temperatures", "why_tests_cant": "identity over the continuum", "anchors": ["qcd-sme/src/low_level/oneloop/thermal/mod.rs: i_m_m_i, i_m_m_l_i, i_m_m_t_i"]}
{"id": "C35", "title": "Specialised integrands are the specialisations they are named after", "statement": "The *_same_mass variants equal the two-mass integrands at equal masses; the variants with index 0 equal the massive ones at mass 0 (for q > 0); likewise for the derivative integrands and for the zero-momentum and zero-Matsubara modules.", "quantifier": "all momenta, frequencies, masses, temperatures", "why_tests_cant": "identity over the continuum for a large family of hand-optimised formulas", "anchors": ["qcd-sme/src/low_level/oneloop/thermal/mod.rs", "qcd-sme/src/low_level/oneloop/thermal/zero_momentum.rs", "qcd-sme/src/low_level/oneloop/thermal/zero_matsubara.rs"]}
{"id": "C36", "title": "Frequency and momentum parity", "statement": "Every thermal integrand is even in the Matsubara frequency and in the spatial momentum p (the latter for real nonzero frequency, real masses).", "quantifier": "all frequencies, momenta, masses, temperatures", "why_tests_cant": "identity over the continuum involving branch cuts", "anchors": ["qcd-sme/src/low_level/oneloop/thermal/mod.rs", "qcd-sme/src/low_level/oneloop/thermal/gluon.rs", "qcd-sme/src/low_level/oneloop/thermal/ghost.rs"]}
{"id": "C37", "title": "Thermal integrands are real at real arguments", "statement": "For real frequency and real masses every thermal integrand (returned as a complex number) has zero imaginary part, so taking .re of the result discards nothing.", "quantifier": "all real arguments with om != 0", "why_tests_cant": "identity over the continuum involving branch cuts", "anchors": ["qcd-sme/src/low_level/oneloop/thermal/mod.rs", "qcd-sme/src/low_level/oneloop/thermal/gluon.rs"]}
{"id": "C38", "title": "Thermal denominators and log arguments never vanish at nonzero frequency", "statement": "For real om != 0, q > 0, p and masses such that the energies are positive, the denominators and logarithm arguments r_0 +- 2 q p are nonzero and the quotient under the logarithm is off the branch cut.", "quantifier": "all real arguments with om != 0, q > 0", "why_tests_cant": "definedness over the continuum", "anchors": ["qcd-sme/src/low_level/oneloop/thermal/mod.rs: r_0, tlog, tlog_l, tlog_t"]}
{"id": "C39", "title": "Mass-derivative integrands", "statement": "d_j_m_i, d_j_m_l_i, d_j_m_t_i and d_i_m_m_i (and their l, t variants) equal the derivative of the corresponding integrand with respect to the (first) mass squared up to a total derivative in q; the second-derivative integrands d2_* equal the mass-squared derivatives of the first-derivative ones (pointwise or up to a total q-derivative).", "quantifier": "all momenta, masses, temperatures", "why_tests_cant": "relation between a function and derivatives over the continuum", "anchors": ["qcd-sme/src/low_level/oneloop/thermal/mod.rs: d_j_m_i, d2_j_m_i, d_j_m_l_i, d2_j_m_l_i, d_j_m_t_i, d2_j_m_t_i, d_i_m_m_i"]}
{"id": "C40", "title": "Zero-momentum formulas are the p -> 0 limits", "statement": "As p -> 0 the general thermal integrands tend to those of the zero_momentum module.", "quantifier": "all frequencies != 0, masses, temperatures, q > 0", "why_tests_cant": "limit with 0/0 cancellation", "anchors": ["qcd-sme/src/low_level/oneloop/thermal/zero_momentum.rs"]}
{"id": "C41", "title": "Zero-Matsubara formulas are the om -> 0 limits", "statement": "As om -> 0 the general thermal integrands tend to those of the zero_matsubara module at every q where those are finite.", "quantifier": "all p, masses, temperatures, q > 0 off the singular momenta", "why_tests_cant": "limit across a branch cut", "anchors": ["qcd-sme/src/low_level/oneloop/thermal/zero_matsubara.rs: tlog"]}
{"id": "C42", "title": "No longitudinal/transverse splitting at zero momentum", "statement": "At zero momentum the longitudinal and transverse polarizations, dressings and propagators coincide, for every integrator.", "quantifier": "all arguments, all integrators, YM and QCD", "why_tests_cant": "identity over the continuum", "anchors": ["qcd-sme/src/low_level/oneloop/thermal/zero_momentum.rs", "qcd-sme/src/low_level/oneloop/thermal/gluon.rs: zero_momentum", "qcd-sme/src/ym/thermal.rs: zero_momentum", "qcd-sme/src/qcd/thermal.rs: zero_momentum"]}
{"id": "C43", "title": "Thermal dressing/propagator consistency", "statement": "For every thermal sector (general, zero_matsubara, zero_momentum; ghost and gluon; YM, QCD, zero temperature, field config), dressing * dressing_inv = 1 and propagator * (om^2+p^2) * dressing_inv = 1 when nonzero, for every integrator.", "quantifier": "all arguments, all integrators", "why_tests_cant": "identity over a large family", "anchors": ["qcd-sme/src/ym/thermal.rs", "qcd-sme/src/qcd/thermal.rs"]}
{"id": "C44", "title": "Thermal QCD reduces to thermal Yang-Mills without quarks", "statement": "With nf() = 0 or an empty quark list the thermal QCD gluon functions equal the Yang-Mills ones; at zero temperature they equal the vacuum functions. The global-constant and single-flavour configuration interfaces agree when nc, nf match.", "quantifier": "all arguments, all integrators, all constants", "why_tests_cant": "identity over the continuum", "anchors": ["qcd-sme/src/qcd/thermal.rs", "qcd-sme/src/ym/thermal.rs"]}
{"id": "C45", "title": "Charge-conjugation symmetry", "statement": "The QCD gluon polarizations, dressings and propagators are unchanged by mu -> -mu, at finite and at zero temperature.", "quantifier": "all arguments, all integrators", "why_tests_cant": "identity over the continuum; zero-temperature code uses the Fermi momentum and sign tests", "anchors": ["qcd-sme/src/low_level/oneloop/thermal/gluon.rs: polarization_quark_l_thermal_part_landau_i and variants", "qcd-sme/src/qcd/thermal.rs"]}
{"id": "C46", "title": "Compactified integration computes the half-line integral", "statement": "With an exact integrator the *_w_method functions, which integrate f((1-t)/t)/t^2 over (0,1), return the integral of f over (0, infinity).", "quantifier": "all integrable integrands", "why_tests_cant": "theorem about integrals", "anchors": ["qcd-sme/src/low_level/oneloop/thermal/ghost.rs: self_energy_thermal_part_landau_w_method", "qcd-sme/src/low_level/oneloop/thermal/gluon.rs: *_w_method", "qcd-sme/src/qcd/thermal.rs: charge_density_with_method"]}
{"id": "C47", "title": "Zero-temperature quark polarization", "statement": "At zero temperature the quark polarization vanishes when |mu| < |mq|; otherwise integrating up to the Fermi momentum equals integrating the zero-temperature integrand over all momenta.", "quantifier": "all masses, chemical potentials, momenta, exact integrator", "why_tests_cant": "theorem about integrals and a case split on real parameters", "anchors": ["qcd-sme/src/low_level/oneloop/thermal/gluon.rs: polarization_quark_*_thermal_part_zero_temp_landau_w_method"]}
{"id": "C48", "title": "Thermal parts vanish in the zero-temperature limit", "statement": "As beta -> +infinity (mu = 0 or |mu| < mq for the quarks) every ghost, glue and quark thermal integrand tends to 0 pointwise, and at |mu| > mq the quark integrand tends to its zero-temperature variant.", "quantifier": "all momenta q > 0, frequencies, masses", "why_tests_cant": "limit statement", "anchors": ["qcd-sme/src/low_level/oneloop/thermal/mod.rs", "qcd-sme/src/low_level/oneloop/thermal/gluon.rs", "qcd-sme/src/low_level/oneloop/thermal/ghost.rs"]}
{"id": "C49", "title": "Unit independence", "statement": "Rescaling all dimensionful arguments (momenta, frequency, masses, chemical potential by L, beta by 1/L) rescales every thermal integrand by its mass dimension and leaves dressings invariant.", "quantifier": "all arguments and all L > 0", "why_tests_cant": "identity over the continuum", "anchors": ["qcd-sme/src/low_level/oneloop/thermal/mod.rs", "qcd-sme/src/low_level/oneloop/thermal/gluon.rs", "qcd-sme/src/qcd/thermal.rs"]}
{"id": "C50", "title": "Charge density: odd in mu, zero at mu = 0, increasing", "statement": "charge_density is odd in the chemical potential and zero at mu = 0 for every odd-respecting integrator; with the exact integral it is strictly increasing in mu, nonnegative for mu > 0, and linear in the number of colours.", "quantifier": "all masses, temperatures, chemical potentials", "why_tests_cant": "theorem about integrals over the continuum", "anchors": ["qcd-sme/src/qcd/thermal.rs: quark::charge_density_with_method, charge_density_i"]}
{"id": "C51", "title": "Zero-temperature density and chemical potential are inverse", "statement": "chemical_potential_zero_temp(m, charge_density_zero_temp(m, mu)) = mu for |mu| > m >= 0 and charge_density_zero_temp(m, chemical_potential_zero_temp(m, n)) = n for all n; the density is 0 for |mu| <= |m|.", "quantifier": "all real densities, masses >= 0, nc >= 1", "why_tests_cant": "inverse pair over the continuum; sign and boundary cases", "anchors": ["qcd-sme/src/qcd/thermal.rs: quark::charge_density_zero_temp, chemical_potential_zero_temp"]}
{"id": "C52", "title": "Finite-temperature chemical potential reproduces the density", "statement": "If chemical_potential_with_method returns mu for n != 0 then |n - charge_density(m, beta, mu)| < tolerance of the integration method; for n = 0 it returns 0; otherwise it panics.", "quantifier": "all densities, masses, temperatures, integrators", "why_tests_cant": "ranges over all integrators and iteration histories", "anchors": ["qcd-sme/src/qcd/thermal.rs: quark::chemical_potential_with_method"]}
{"id": "C53", "title": "Critical temperature is the first maximum", "statement": "find_critical_temperature returns the temperature at the first position where the sampled quantity attains its maximum over the common prefix of the two slices (NaN samples after the first never win) and panics exactly on empty input.", "quantifier": "all pairs of slices of any length and content", "why_tests_cant": "unbounded slices, NaN behaviour", "anchors": ["tc_long_prop/src/lib.rs: find_critical_temperature"]}
{"id": "C54", "title": "Reducing a phase boundary", "statement": "reduce_phase_boundary returns the longest prefix with no zero temperature, is idempotent, and is the identity on boundaries without zero temperature.", "quantifier": "all boundaries of any length", "why_tests_cant": "unbounded lists", "anchors": ["tc_long_prop/src/lib.rs: reduce_phase_boundary"]}
{"id": "C55", "title": "Phase membership test", "statement": "For a boundary that up to its first zero temperature has strictly increasing mu and strictly decreasing positive T, is_deconfined_phase(mu, t) answers t > Tc(mu) for the piecewise-linear interpolation Tc (and deconfined beyond the last point, even at t = 0), so the boundary itself is confined; on any boundary it panics exactly when the reduced boundary is empty or mu lies below its first point.", "quantifier": "all such boundaries of any length, all mu, t", "why_tests_cant": "unbounded lists and a continuum of points", "anchors": ["tc_long_prop/src/lib.rs: is_deconfined_phase"]}
{"id": "C56", "title": "Phase membership on plateaus", "statement": "On a boundary with two consecutive equal temperatures a point on the boundary is reported deconfined, contradicting the documented convention that the boundary belongs to the confined phase.", "quantifier": "existence of a non-strictly decreasing boundary and a point", "why_tests_cant": "refutation of a universal claim", "anchors": ["tc_long_prop/src/lib.rs: is_deconfined_phase"]}
{"id": "C57", "title": "Parametric phase diagram is a polynomial", "statement": "parametric_phase_diagram(params, mu) equals the sum over i of params[i] times x^i for its expansion variable; it panics exactly on an empty parameter list.", "quantifier": "all parameter lists of any length, all mu", "why_tests_cant": "unbounded lists", "anchors": ["tc_long_prop/src/lib.rs: parametric_phase_diagram"]}
{"id": "C58", "title": "Sampling grids", "statement": "compute_vec produces the equally spaced grid vmin + k dv, k = 0..n with n = round((vmax-vmin)/dv): n+1 strictly increasing points within dv/2 of covering [vmin, vmax].", "quantifier": "all ranges and steps", "why_tests_cant": "continuum of ranges", "anchors": ["tc_long_prop/src/bin/physical_tc.rs: Config::compute_vec"]}
{"id": "C59", "title": "Corrected configuration data stay consistent", "statement": "After any history of the setters of physical_tc's Config (starting from new) a corrected renormalisation constant is stored exactly when a corrected field configuration is; maybe_corrected_data fails with the 'inconsistent' panic exactly when one of corrected configuration and phase boundary is set and the other is not; otherwise it returns the corrected pair in the deconfined phase and the uncorrected pair elsewhere. Assigning the public field correctedfieldconfig directly can break the consistency. set_correctedfieldconfig panics when the corrected configuration has more quarks than the original one.", "quantifier": "all histories of setter calls", "why_tests_cant": "invariant over histories", "anchors": ["tc_long_prop/src/bin/physical_tc.rs: Config::set_correctedfieldconfig, set_correctedf0, set_phase_boundary, maybe_corrected_data"]}
{"id": "C60", "title": "Ultraviolet matching of the corrected renormalisation constant", "statement": "The correction of f0 applied when quark masses change makes the difference between corrected and uncorrected inverse gluon dressing vanish as s -> infinity.", "quantifier": "all quark lists and masses", "why_tests_cant": "limit statement over all configurations", "anchors": ["tc_long_prop/src/bin/physical_tc.rs: Config::new, set_correctedf0"]}
{"id": "C61", "title": "The quark loop is the subtracted Feynman-parameter integral", "statement": "For every s > 0, f_q(s) = -(4/3) * integral over x in [0,1] of x(1-x) ln(1 + x(1-x)s), and f_q_crossed(s) is the same integral with ln(1+w s) replaced by ln(1+w s) + 2 w s/(1+w s), w = x(1-x); hence both are strictly negative, with -s/12 <= f_q and -s/4 <= f_q_crossed.", "quantifier": "all real s > 0", "why_tests_cant": "an identity between a closed form and an integral at every momentum", "anchors": ["qcd-sme/src/low_level/oneloop/gluon.rs: f_q, f_q_crossed"]}
{"id": "C62", "title": "Thermal loop integrands are angular integrals of the on-shell loop", "statement": "For every loop momentum q > 0 at which no denominator vanishes at any angle, each of the i_* and j_* thermal integrands (two masses, equal masses, one massless, both massless; scalar, longitudinal and transverse; at generic momentum, at p = 0 and at zero Matsubara frequency with real masses) equals q^2/(4 pi^2) times the integral over the angle of numerator over denominator with one propagator on shell, Bose weight n(E)/(2E), both energy signs and both legs. With real masses this covers every real non-zero frequency, and every complex frequency off the imaginary axis with |Im om| below both on-shell energies.", "quantifier": "all q > 0, momenta p, real or complex frequencies and masses with regular denominators, all beta", "why_tests_cant": "identity between closed forms with complex logarithms and integrals over a continuum", "anchors": ["qcd-sme/src/low_level/oneloop/thermal/mod.rs: i_m_m_i, i_m_m_l_i, i_m_m_t_i, *_same_mass, i_m_0_*, i_0_0_*, j_m_*, j_0_*, zero_momentum, zero_matsubara"]}
{"id": "C63", "title": "Thermal quark loop is the projected trace", "statement": "For every loop momentum at which no denominator vanishes, the integrands of the longitudinal and transverse thermal quark loop (finite temperature and zero temperature, generic momentum, p = 0, zero Matsubara frequency) equal 2/nc times the angular integral of the projected Dirac trace 2 (u.Q)^2 - (K^2 + m^2 - P^2)/2 over K^2 + m^2, with one propagator on shell weighted by the sum of quark and antiquark Fermi distributions.", "quantifier": "all q, p, frequencies, quark masses, temperatures, chemical potentials and numbers of colours with regular denominators", "why_tests_cant": "identity between closed forms with complex logarithms and integrals over a continuum", "anchors": ["qcd-sme/src/low_level/oneloop/thermal/gluon.rs: polarization_quark_l_thermal_part_landau_i, polarization_quark_t_thermal_part_landau_i, zero_temp, zero_momentum, zero_matsubara"]}
{"id": "C64", "title": "Critical temperatures are the first maxima of the renormalised infrared propagator", "statement": "For every configuration built by new and setters and all propagators, the phase boundary returned (and written to tc_*.out) by compute_phase_diagram has one point per chemical potential of the grid, in order, and its temperature is the first temperature of the grid at which the propagator renormalised to 1/renpoint^2 at renpoint and evaluated at the smallest momentum is largest. The first grid temperature stands for zero temperature, whatever its value; the fields and the constant are those of the phase of the point.", "quantifier": "all reachable configurations, propagators, file names and directory contents", "why_tests_cant": "argmax over grids of any size for arbitrary propagators", "anchors": ["tc_long_prop/src/bin/physical_tc.rs: compute_phase_diagram", "tc_long_prop/src/lib.rs: find_critical_temperature"]}
{"id": "C65", "title": "When the scans panic", "statement": "compute_propagators, compute_transverse_propagators and compute_ir_limit panic exactly when, for some chemical potential of the grid, only one of corrected configuration and phase boundary is set, or both are and the (reduced) boundary is empty or begins above that chemical potential. compute_phase_diagram panics in these cases and when the grid has less than four chemical potentials, and then writes nothing.", "quantifier": "all reachable configurations, propagators and directory contents", "why_tests_cant": "equivalence over all configurations", "anchors": ["tc_long_prop/src/bin/physical_tc.rs: compute_propagators, compute_transverse_propagators, compute_ir_limit, compute_phase_diagram, Config::maybe_corrected_data"]}
{"id": "C66", "title": "Second derivative of the phase boundary", "statement": "The file tcd2_*.out has one row for each chemical potential of the grid except the first two and the last two; the row holds the symmetric second difference of the critical temperatures with step twice the grid spacing, which for critical temperatures given by a twice differentiable function is its second derivative at some point of the stencil.", "quantifier": "all reachable configurations and all grids with at least four chemical potentials", "why_tests_cant": "index arithmetic over grids of any size and a mean value theorem", "anchors": ["tc_long_prop/src/bin/physical_tc.rs: compute_phase_diagram"]}
{"id": "C67", "title": "Propagator files hold the renormalised propagators of their names", "statement": "When the grids of temperatures and chemical potentials have steps above 0.0001, after compute_propagators there is one file for each pair, named after it with four decimals, holding each momentum of the grid with the propagator at that temperature and chemical potential, renormalised to m^2/renpoint^2 at renpoint; other files are untouched. With a finer grid files of different temperatures overwrite each other.", "quantifier": "all reachable configurations, propagators, grids and directory contents", "why_tests_cant": "grids of any size; absence of collisions for all of them", "anchors": ["tc_long_prop/src/bin/physical_tc.rs: compute_propagators, compute_transverse_propagators"]}
{"id": "C68", "title": "When the program physical_tc ends", "statement": "For every input the program ends without a panic exactly when the finest grid has at least four chemical potentials, the critical temperature at its first chemical potential is not zero, and no chemical potential of the finest or of the coarse grid lies below that first one.", "quantifier": "all inputs, propagators, fits and initial directories", "why_tests_cant": "equivalence over all inputs of a run of several stages", "anchors": ["tc_long_prop/src/bin/physical_tc.rs: main"]}
{"id": "C69", "title": "Which boundary the written fit parameters belong to", "statement": "At the end of a run tc_nf_2+1.out holds the boundary without correction, tc_nf_2+1_corrected.out the boundary computed with corrected fields above it, and tc_nf_2+1_corrected_fit_parameters.out the parameters of the fit of the boundary WITHOUT correction: in general they are not the parameters of the corrected boundary, as the name of the file and the log message say.", "quantifier": "all inputs, propagators, fits and initial directories", "why_tests_cant": "data flow of a whole run for arbitrary propagators", "anchors": ["tc_long_prop/src/bin/physical_tc.rs: main, Config::phase_boundary", "tc_long_prop/src/lib.rs: parametrize_phase_boundary"]}
{"id": "C70", "title": "The thermal ghost self-energy is the one-loop diagram of the massive expansion", "statement": "For real non-zero frequency and momentum, positive mass and temperature, the thermal integrand of the ghost self-energy is the one-loop ghost self-energy built from the Landau-gauge Feynman rules (transverse massive gluon propagator, massless ghost propagator, ghost-gluon vertices), each internal line put on shell in turn with its Bose weight, together with one insertion of the two-gluon vertex (the operation 1 - m^2 d/dm^2 on the momentum integral).", "quantifier": "all real non-zero frequencies and momenta, all masses and temperatures, all loop momenta; frequency passed as real or complex", "why_tests_cant": "the identity involves tensor contractions, residues, angular integrals and derivatives with respect to the mass and must hold at every kinematic point; no independent implementation exists to compare with", "anchors": ["qcd-sme/src/low_level/oneloop/thermal/ghost.rs: self_energy_thermal_part_landau_i"]}
{"id": "C71", "title": "The thermal gluon polarization is the sum of the one-loop diagrams of the massive expansion", "statement": "For real non-zero frequency and momentum, positive mass and temperature, the thermal integrands of the longitudinal and of the transverse glue polarization are the sum of the gluon loop (with at most one insertion of the two-gluon vertex), the ghost loop and the four-gluon tadpole (with at most two insertions), built from the Landau-gauge Feynman rules and projected on the longitudinal, respectively averaged over the two transverse, polarisations.", "quantifier": "all real non-zero frequencies and momenta, all masses and temperatures, all loop momenta; arguments passed as real or complex", "why_tests_cant": "same as above: fifteen terms with rational coefficients whose errors a sample of points cannot exclude, and no independent implementation", "anchors": ["qcd-sme/src/low_level/oneloop/thermal/gluon.rs: polarization_glue_l_thermal_part_landau_i, polarization_glue_t_thermal_part_landau_i"]}
{"id": "C72", "title": "Low temperatures give the vacuum", "statement": "With exact integration, when beta grows without bound the thermal parts of the ghost self-energy and of the glue polarization tend to zero, and the quark polarizations tend to the ones computed by the functions for zero temperature at the same chemical potential. So the thermal inverse dressings and propagators of the pure Yang-Mills theory tend to the vacuum ones at the same four-momentum, and those of QCD (for a degenerate quark or any FieldConfig) to those of the zero_temp functions, which are the vacuum ones when the chemical potential lies below the quark masses. This holds for the general functions, for zero momentum and, for gluons, for zero Matsubara frequency with non-zero regulator.", "quantifier": "all real non-zero frequencies (any non-zero regulator), real momenta, non-zero gluon masses, real quark masses and chemical potentials, quark lists and renormalisation constants", "why_tests_cant": "a limit of improper integrals of oscillating rational-logarithmic integrands; no finite set of temperatures shows it, and the exchange of limit and integral needs a bound uniform in the temperature", "anchors": ["qcd-sme/src/low_level/oneloop/thermal/ghost.rs: self_energy_thermal_part_landau_w_method", "qcd-sme/src/low_level/oneloop/thermal/gluon.rs: polarization_glue_l_thermal_part_landau_w_method, polarization_quark_l_thermal_part_landau_w_method, zero_temp", "qcd-sme/src/ym/thermal.rs: ghost, gluon, zero_momentum, zero_matsubara", "qcd-sme/src/qcd/thermal.rs: gluon, zero_momentum, zero_matsubara, zero_temp"]}
{"id": "C73", "title": "The thermal integrals exist", "statement": "For real non-zero frequency the integrands of the thermal ghost self-energy and of the longitudinal and transverse glue and quark polarizations are absolutely integrable over all loop momenta, at every temperature and, for quarks, at zero temperature; and the function handed to the quadrature on the unit interval is integrable there. The same holds at zero momentum and, for gluons, at zero Matsubara frequency with non-zero regulator.", "quantifier": "all real non-zero frequencies (any non-zero regulator), real momenta, non-zero gluon masses, all quark masses, chemical potentials and temperatures", "why_tests_cant": "convergence of an improper integral cannot be observed on sampled points", "anchors": ["qcd-sme/src/low_level/oneloop/thermal/ghost.rs: self_energy_thermal_part_landau_i", "qcd-sme/src/low_level/oneloop/thermal/gluon.rs: polarization_glue_l_thermal_part_landau_i, polarization_glue_t_thermal_part_landau_i, polarization_quark_l_thermal_part_landau_i, polarization_quark_t_thermal_part_landau_i, zero_momentum, zero_matsubara"]}
{"id": "C74", "title": "The zero-frequency ghost self-energy is not a convergent integral", "statement": "At zero Matsubara frequency the ghost self-energy functions integrate the exact zero-frequency integrand, without the regulator which the gluon functions use. At every momentum, mass and temperature this integrand has a simple pole with non-zero residue at the loop momentum (p^2+m^2)/(2p): it is not integrable over any interval containing that point, nor over all loop momenta, and the function handed to the quadrature is not integrable on the unit interval. What the functions return is therefore not the value of an integral but depends on how the quadrature places its points around the pole.", "quantifier": "all positive momenta, non-zero masses and positive temperatures; all intervals around the pole", "why_tests_cant": "a quadrature returns a number whether or not the integral exists", "anchors": ["qcd-sme/src/low_level/oneloop/thermal/ghost.rs: zero_matsubara::self_energy_thermal_part_landau_w_method, zero_matsubara::self_energy_thermal_part_landau_i", "qcd-sme/src/ym/thermal.rs: zero_matsubara::ghost::dressing_inv_landau"]}
{"id": "C75", "title": "High temperatures give hard thermal loops", "statement": "With exact integration, -2 nc times the thermal part of the longitudinal (transverse) quark polarization, divided by the square of the temperature, tends to the hard-thermal-loop polarization of the photon divided by e^2 when the temperature grows without bound; the quark mass drops out, and a chemical potential proportional to the temperature enters only through T^2 + 3 mu^2/pi^2. At zero momentum both tend to the square of the plasma frequency, 1/9; at zero Matsubara frequency the limit is taken at the regulator. The limit itself has the Debye mass squared 1/3 and no magnetic mass.", "quantifier": "all real non-zero frequencies (any non-zero regulator), real non-zero momenta, all quark masses, all chemical potentials as functions of the temperature with convergent mu/T", "why_tests_cant": "a limit of improper integrals: the example in the repository plots it at four temperatures and one frequency", "anchors": ["qcd-sme/src/low_level/oneloop/thermal/gluon.rs: polarization_quark_l_thermal_part_landau_w_method, polarization_quark_t_thermal_part_landau_w_method, zero_momentum, zero_matsubara", "qcd-sme/examples/qed_htl_limit.rs: f_htl, g_htl, f_ours, g_ours"]}
{"id": "C76", "title": "The tables of critical temperatures", "statement": "The two programs that scan the critical temperature never panic, whatever calls of the setters came before. tc.out has one line for the theory without quarks and then exactly one for each number of fermions, quark mass (or pair of masses) and chemical potential, in nested order; the temperature on each line is the lowest one of the scan, zero included, at which the renormalised infrared limit of the longitudinal gluon propagator of that theory is largest. The first program leaves the global constants as after its calls of set_number_of_fermions, the second unchanged. With three colours and common settings a line of the second with equal masses agrees with the line of the first with twice as many fermions.", "quantifier": "all sequences of earlier setter calls, all settings with non-zero masses, frequency and temperatures and an increasing scan, all integrators, all number formats", "why_tests_cant": "the programs change the global number of fermions in the middle of a parallel scan; that each line belongs to its own parameters and to no earlier ones is a statement about all runs", "anchors": ["tc_long_prop/src/bin/one_mass_overall.rs: main, find_critical_temperature", "tc_long_prop/src/bin/two_masses_overall.rs: main, find_critical_temperature"]}
{"id": "C77", "title": "The plots of the scans", "statement": "Every plot the two programs draw has for each curve one value for each point of the domain and either no legend or one entry for each curve. For each number of fermions, mass and chemical potential there is a plot of the renormalised propagators, first at zero temperature and then at the listed ones; for each number of fermions and mass one of the infrared limits, a curve for each chemical potential, and one of the critical temperatures; there are no further ones but the two of the theory without quarks. The grids start at the first value, are equally spaced, stay in the interval and leave no room for another point.", "quantifier": "all settings as above, all integrators, all numbers of points", "why_tests_cant": "the plotting code indexes curves against domains built elsewhere; agreement of the lengths for every setting is not seen in a picture", "anchors": ["tc_long_prop/src/bin/one_mass_overall.rs: main", "tc_long_prop/src/bin/two_masses_overall.rs: main"]}
{"id": "C78", "title": "Zero temperature in the scans is the limit of low temperatures", "statement": "The point at zero temperature, which the programs compute with other functions of the library than the ones at positive temperature, is the limit of the latter as the temperature goes to zero, wherever the propagator at zero temperature is defined at the plotted momentum and the renormalisation scale and its real part does not vanish at the latter.", "quantifier": "all settings with positive gluon mass and non-zero frequency, all field contents with a massive gluon, all chemical potentials and momenta, exact integration", "why_tests_cant": "a limit of improper integrals through a division", "anchors": ["tc_long_prop/src/bin/one_mass_overall.rs: main", "tc_long_prop/src/bin/two_masses_overall.rs: main", "qcd-sme/src/qcd/thermal.rs: gluon::propagator_l_landau_w_field_config, gluon::propagator_l_zero_temp_landau_w_field_config"]}
{"id": "C79", "title": "The C interface follows its header, and calls interact only through the setters", "statement": "No two functions of the shared library share a symbol. In every sequence of calls that follows the header, each call of a function that computes returns a value of the declared type, the one of the library function in the state left by the settings made before, in the same order; such calls have no influence on later ones. A rejected setting (a tolerance or regulator that is not positive) ends the process.", "quantifier": "all finite sequences of calls of the 234 exported functions with arguments of the declared types", "why_tests_cant": "the claim is about all interleavings of setting and computing calls of a process", "anchors": ["qcd-sme/src/ffi.rs", "qcd-sme/src/consts.rs", "qcd-sme/src/common/mod.rs: ffi", "qcd-sme/src/common/thermal.rs: ffi", "qcd-sme/src/low_level/oneloop/thermal/mod.rs: ffi", "qcd-sme/src/qcd/gluon.rs: ffi", "qcd-sme/src/ym/ghost.rs: ffi"]}
{"id": "C80", "title": "Real and complex functions of the C interface agree", "statement": "At positive real momentum each of the 42 functions of the C interface with the suffix __complex returns the value of its real counterpart with imaginary part zero, in every state of the global constants.", "quantifier": "all positive momenta, all non-zero quark masses, all gauge parameters, renormalisation constants and precomputed logarithms, all states of the constants", "why_tests_cant": "equality of real and complex elementary functions on a half-line", "anchors": ["qcd-sme/src/ffi.rs", "qcd-sme/src/ym/ghost.rs: ffi", "qcd-sme/src/ym/gluon.rs: ffi", "qcd-sme/src/qcd/ghost.rs: ffi", "qcd-sme/src/qcd/gluon.rs: ffi", "qcd-sme/src/low_level/oneloop/ghost.rs: ffi", "qcd-sme/src/low_level/oneloop/gluon.rs: ffi"]}
{"id": "C81", "title": "The thermal integrals are Matsubara sums minus energy integrals", "statement": "At an external frequency that is a non-zero multiple of 2 pi T, each of the functions i_m_m_i, i_m_0_i, i_0_0_i, their longitudinal and transverse versions, their same-mass and zero-momentum variants and the tadpoles j_m_i, j_0_i is integrable over the momentum, and its integral is the thermal part of the corresponding loop: T times the sum over all Matsubara frequencies of the loop energy, minus the integral over the energy at zero temperature, integrated over the spatial momentum. Sum and integral converge for almost every spatial momentum. The same holds for the diagrams the ghost self-energy and the gluon polarizations are made of.", "quantifier": "all non-zero Matsubara frequencies, all temperatures, all momenta, all real masses, real and complex instances", "why_tests_cant": "the claim relates an improper integral to an infinite sum of four-dimensional integrals", "anchors": ["qcd-sme/src/low_level/oneloop/thermal/mod.rs: i_m_m_i, i_m_0_i, i_0_0_i, i_m_m_l_i, i_m_m_t_i, j_m_i, j_0_i, zero_momentum"]}
{"id": "C82", "title": "The mass-derivative integrands integrate to the derivatives of the integrals", "statement": "For each loop and tadpole function of the thermal modules the integral over the momentum exists, is differentiable in the mass squared, and its derivative is the integral of the corresponding derivative function: d_i_m_0_i and its l and t versions, twice d_i_m_m_i_same_mass and its l and t versions, d_j_m_i, d_j_m_l_i, d_j_m_t_i and the second derivatives d2_j_m_i, d2_j_m_l_i, d2_j_m_t_i.", "quantifier": "all real non-zero frequencies and momenta, all positive masses, all temperatures, real and complex instances", "why_tests_cant": "differentiation under an improper integral, with derivative functions that are not the pointwise derivatives", "anchors": ["qcd-sme/src/low_level/oneloop/thermal/mod.rs: d_i_m_0_i, d_i_m_m_i_same_mass, d_i_m_0_l_i, d_i_m_0_t_i, d_i_m_m_l_i_same_mass, d_i_m_m_t_i_same_mass, d_j_m_i, d_j_m_l_i, d_j_m_t_i, d2_j_m_i, d2_j_m_l_i, d2_j_m_t_i"]}
{"id": "C83", "title": "The integrated thermal self-energies are the diagrams of the massive expansion at finite temperature", "statement": "At a non-zero Matsubara frequency, with an exact integrator, self_energy_thermal_part_landau is (1 - M d/dM) of the thermal part (Matsubara sum minus energy integral) of the one-loop ghost self-energy with gluon mass squared M, at M = m^2; polarization_glue_l_thermal_part_landau and polarization_glue_t_thermal_part_landau are (1 - M d/dM) of the gluon loop plus the ghost loop plus (1 - M d/dM + M^2/2 d^2/dM^2) of the tadpole, projected on the longitudinal and on the transverse polarisations. The thermal parts are differentiable in M, the tadpole twice.", "quantifier": "all non-zero Matsubara frequencies, all non-zero momenta, all positive masses, all temperatures, all states of the constants, real and complex instances", "why_tests_cant": "the claim relates the value of a quadrature to derivatives of infinite sums of four-dimensional integrals of Feynman diagrams", "anchors": ["qcd-sme/src/low_level/oneloop/thermal/ghost.rs: self_energy_thermal_part_landau", "qcd-sme/src/low_level/oneloop/thermal/gluon.rs: polarization_glue_l_thermal_part_landau, polarization_glue_t_thermal_part_landau"]}
{"id": "C84", "title": "The quark part of the thermal polarization is the one-loop quark diagram at finite temperature and density", "statement": "At a non-zero Matsubara frequency, with an exact integrator, polarization_quark_l_thermal_part_landau and polarization_quark_t_thermal_part_landau are the thermal part of the quark loop 1/(2N) tr[e S(Q) e S(P+Q)]: the sum over the frequencies (2n+1) pi T + i mu minus the energy integral, integrated over the spatial momenta and projected on the longitudinal and on the transverse polarisations. The zero-temperature functions are the integral over the line of imaginary part mu minus the integral over the real line, with nothing left out beyond the Fermi momentum. The zero-momentum functions are the same at vanishing momentum.", "quantifier": "all non-zero Matsubara frequencies (all non-zero frequencies at zero temperature), all momenta, all masses and chemical potentials of either sign, all temperatures, all states of the constants, every representation of the Dirac matrices, real and complex instances", "why_tests_cant": "the claim relates the value of a quadrature to infinite sums of four-dimensional integrals of traces of Dirac matrices, including frequencies with complex values", "anchors": ["qcd-sme/src/low_level/oneloop/thermal/gluon.rs: polarization_quark_l_thermal_part_landau, polarization_quark_t_thermal_part_landau, polarization_quark_l_thermal_part_zero_temp_landau, polarization_quark_t_thermal_part_zero_temp_landau, zero_momentum"]}
{"id": "C85", "title": "The vacuum ghost dressing function is the one-loop diagram of the massive expansion", "statement": "For any two non-zero momenta P1, P2, the difference of the inverse ghost dressing functions (ghost.dressing_inv_landau at P^2/m^2) is 16 pi^2/3 times (1 - M d/dM), at M = m^2, of the one-loop ghost self-energy divided by P^2 and subtracted between the two momenta: a four-dimensional integral over a ball of radius L of Feynman rules, with L sent to infinity after the subtraction. At finite temperature the same holds of ym::thermal::ghost::dressing_inv_landau with the thermal part (Matsubara sum minus energy integral) added.", "quantifier": "all pairs of non-zero momenta in four dimensions, all positive masses, all renormalisation constants; for the thermal statement all non-zero Matsubara frequencies and non-zero spatial momenta, all temperatures", "why_tests_cant": "the claim relates closed formulas with logarithms to limits of four-dimensional integrals", "anchors": ["qcd-sme/src/low_level/oneloop/ghost.rs: g_sep, g", "qcd-sme/src/ym/ghost.rs: dressing_inv_landau", "qcd-sme/src/ym/thermal.rs: ghost::dressing_inv_landau"]}
{"id": "C86", "title": "The vacuum gluon dressing function is the sum of the one-loop diagrams of the massive expansion", "statement": "There is a constant z, depending only on the mass and on the renormalisation constant, such that at every non-zero momentum P the inverse gluon dressing function (ym::gluon::dressing_inv_landau at P^2/m^2) is z minus 16 pi^2/3 times Pi/P^2, where Pi is the finite part of the one-loop self-energy built from the Feynman rules: gluon loop with at most one mass insertion, ghost loop, tadpole with at most two, contracted with any polarisations orthogonal to P, integrated over a four-dimensional ball of radius L with multiples of L^2 and log L^2 subtracted. The finite part is determined by the diagrams. The same holds of the ghost, and at finite temperature of the longitudinal and transverse inverse dressing functions of ym::thermal with the thermal part of the same diagrams added and the same constant.", "quantifier": "all non-zero momenta in four dimensions, all lists of unit polarisations orthogonal to them, all positive masses, all renormalisation constants; for the thermal statement all non-zero Matsubara frequencies and non-zero spatial momenta, all temperatures", "why_tests_cant": "the claim relates closed formulas with logarithms and square roots to limits of divergent four-dimensional integrals", "anchors": ["qcd-sme/src/low_level/oneloop/gluon.rs: l_a, l_b, l_c, r_a, r_b, r_c, f_sep, f", "qcd-sme/src/ym/gluon.rs: dressing_inv_landau", "qcd-sme/src/ym/ghost.rs: dressing_inv_landau", "qcd-sme/src/ym/thermal.rs: gluon::dressing_l_inv_landau, gluon::dressing_t_inv_landau"]}
{"id": "C87", "title": "The vacuum quark-loop function is the one-loop quark diagram, and the crossed one is its mass insertion", "statement": "For every quark mass there is a constant z such that at every non-zero momentum P the quark-loop function f_q(P^2/M^2) divided by the number of colours is z minus 16 pi^2/3 times Pi/P^2, where Pi is the one-loop quark diagram built from the Feynman rules with Dirac matrices (trace of two propagators and two vertices), contracted with any polarisations orthogonal to P, integrated over a four-dimensional ball with the divergence and the value at zero momentum subtracted. The crossed function f_q_crossed is in the same way the diagram with at most one insertion of the mass of the quark. The subtracted diagram is determined by the rules, and the insertion in the diagram is minus M times its derivative in M.", "quantifier": "all Dirac matrices, all non-zero momenta in four dimensions, all lists of unit polarisations orthogonal to them, all positive quark masses, all non-zero numbers of colours", "why_tests_cant": "the claim relates closed formulas with logarithms and square roots to limits of divergent four-dimensional integrals of traces of matrices", "anchors": ["qcd-sme/src/low_level/oneloop/gluon.rs: f_q, f_q_crossed"]}
{"id": "C88", "title": "The gluon functions of QCD are the sum of all the one-loop diagrams, with any quarks, in vacuum and at finite temperature and density", "statement": "For every list of quarks (numbers of flavours and masses) there is a constant z such that the inverse gluon dressing function of QCD is z minus 16 pi^2/3 times Pi/P^2, where Pi adds the gluon, ghost and tadpole diagrams and one quark diagram per flavour: in vacuum (also with the crossed quark loop), at finite temperature and chemical potential and at zero temperature and finite density, longitudinal and transverse, with the same constant at every momentum, temperature and chemical potential. The functions without a configuration have the same property with the global numbers of colours and flavours, after any sequence of calls that set them.", "quantifier": "all Dirac matrices, all lists of quarks with positive masses, all gluon masses, all renormalisation constants, all momenta (non-zero Matsubara frequency and spatial momentum in the thermal functions), all temperatures and chemical potentials, all sequences of calls of the setters", "why_tests_cant": "the sum ranges over arbitrary lists of quarks and the constant must be common to all momenta and thermodynamic states", "anchors": ["qcd-sme/src/qcd/gluon.rs: dressing_inv_landau, dressing_crossed_inv_landau, dressing_inv_landau_w_field_config, dressing_crossed_inv_landau_w_field_config", "qcd-sme/src/qcd/thermal.rs: gluon::dressing_l_inv_landau, gluon::dressing_t_inv_landau, gluon::dressing_l_inv_zero_temp_landau, gluon::dressing_t_inv_zero_temp_landau and the *_w_field_config versions", "qcd-sme/src/consts.rs"]}
{"id": "C89", "title": "The vacuum gluon and ghost functions in any covariant gauge are the one-loop diagrams with the propagator of that gauge", "statement": "For every gauge parameter xi, mass and renormalisation constant there is a constant z such that, at every momentum P, the inverse gluon dressing function is z minus 16 pi^2/3 times Pi/P^2, where Pi is the finite part (with a momentum cutoff) of the gluon loop, ghost loop and tadpole, computed with the gluon propagator t(Q)/(Q^2+m^2) + xi l(Q)/Q^2, with at most one insertion of the mass term in the loop and two in the tadpole, for every set of polarisations orthogonal to P. The inverse ghost dressing function is z plus 16 pi^2/3 times its one-loop self-energy over P^2, with the same propagator. With quarks (any list, or the global flavours after any calls of the setters), the quark loops add to the self-energy, also for the crossed functions.", "quantifier": "all gauge parameters, masses, renormalisation constants, non-zero Euclidean momenta, lists of polarisations, lists of quarks with positive masses, sequences of calls of the setters", "why_tests_cant": "the closed form must agree with a four-dimensional integral whose cutoff goes to infinity, at every momentum and in every gauge", "anchors": ["qcd-sme/src/low_level/oneloop/gluon.rs: f_xi_sep, f_xi", "qcd-sme/src/low_level/oneloop/ghost.rs: g_xi_sep, g_xi, dressing_inv_sep", "qcd-sme/src/ym/gluon.rs: dressing_inv", "qcd-sme/src/ym/ghost.rs: dressing_inv", "qcd-sme/src/qcd/gluon.rs: dressing_inv, dressing_crossed_inv, dressing_inv_w_field_config, dressing_crossed_inv_w_field_config"]}
{"id": "C90", "title": "The functions for zero spatial momentum are the one-loop diagrams at zero spatial momentum, renormalised as the general ones", "statement": "At every non-zero Matsubara frequency the thermal ghost self-energy and the longitudinal and transverse thermal gluon polarizations of the zero-momentum interface are the thermal parts of the one-loop diagrams with the external line (om, 0), with at most one insertion of the mass term in loops and two in the tadpole. The inverse dressing functions of the zero-momentum interfaces (pure Yang-Mills theory; QCD with any list of quarks or the global flavours after any calls of the setters; finite temperature and density, or zero temperature and finite density) are a constant minus 16 pi^2/3 times the sum of the diagrams over the frequency squared, and the constant is the same one as for the interfaces with a spatial momentum, so that the two join. The ghost function differs from the one at any other point by the difference of the diagrams.", "quantifier": "all inverse temperatures, non-zero Matsubara frequencies (any non-zero frequency at zero temperature), chemical potentials, masses, renormalisation constants, lists of quarks with positive masses, sequences of calls of the setters", "why_tests_cant": "the zero-momentum code is written separately from the general code, with its own closed forms; agreement with the diagram is an identity between improper integrals at every frequency", "anchors": ["qcd-sme/src/low_level/oneloop/thermal/zero_momentum.rs", "qcd-sme/src/low_level/oneloop/thermal/ghost.rs: zero_momentum", "qcd-sme/src/low_level/oneloop/thermal/gluon.rs: zero_momentum", "qcd-sme/src/ym/thermal.rs: zero_momentum", "qcd-sme/src/qcd/thermal.rs: zero_momentum"]}
{"id": "C91", "title": "As its regulator goes to zero, the zero-frequency quark loop converges to the static one-loop quark diagram", "statement": "The zero-frequency functions for the quark part of the gluon polarization (longitudinal and transverse, finite temperature and density or zero temperature and finite density) integrate the loop at a small frequency, the regulator stored in the global configuration. For every non-zero spatial momentum and quark mass the value converges as the regulator goes to zero, from either side. The limit is the one-loop quark diagram at external frequency exactly zero: the trace of two quark propagators contracted with the transverse projectors, summed over the fermionic Matsubara frequencies minus the vacuum integral (at zero temperature: integrated along the frequency line displaced by the chemical potential minus the vacuum integral), and integrated over the spatial momentum. In the static loop the two lines have the same energy on a plane of spatial momenta, where each of the two terms of the integrand is singular; the statement includes that the sum is integrable, also when the Fermi surface crosses that plane.", "quantifier": "all non-zero spatial momenta, non-zero quark masses, inverse temperatures, chemical potentials, numbers of colors, representations of the Dirac matrices", "why_tests_cant": "a limit of improper integrals whose integrand becomes singular at the limit; the exchange of limit and integral can fail, and fails for the ghost function (C74)", "anchors": ["qcd-sme/src/low_level/oneloop/thermal/gluon.rs: zero_matsubara::polarization_quark_l_thermal_part_landau, polarization_quark_t_thermal_part_landau, polarization_quark_l_thermal_part_zero_temp_landau, polarization_quark_t_thermal_part_zero_temp_landau", "qcd-sme/src/consts.rs: set_matsubara_reg, get_matsubara_reg"]}
{"id": "C92", "title": "A run of physical_tc that ends leaves the four families of propagator files, each with the right propagator", "statement": "When the program physical_tc ends without a panic, then for each temperature and each chemical potential of the coarse grids (more than 0.0001 apart) there are four files with both numbers in their names. The two without correction hold, for every momentum of the grid, the renormalised longitudinal (glulongprop) and transverse (glutransprop) gluon propagator for two light quarks and one strange quark with the masses of the input and the constant f0 + 4/27 (2 ln(mg/m_l) + ln(mg/m_s)); the file for the first temperature of the grid holds the zero-temperature function. The two corrected ones hold the same with the fields and the constant that belong to the phase of the point relative to the boundary the run has written to tc_nf_2+1.out. None of them is overwritten by a later step.", "quantifier": "all inputs, all integrators, all contents of the directory before the run, all propagator functions, all four-decimal formats, all points of the grids", "why_tests_cant": "the run is a sequence of steps that share mutable configuration and a directory; that no later step overwrites an earlier file or uses the configuration of another step must hold for every input", "anchors": ["tc_long_prop/src/bin/physical_tc.rs: main, compute_propagators, Config", "tc_long_prop/src/lib.rs: more_masses"]}
{"id": "C93", "title": "Analytic structure of the thermal functions in the complex frequency", "statement": "At a complex frequency with nonzero real part (that is, off the real-time axis) every thermal self-energy, inverse dressing function, dressing function and propagator that accepts complex frequencies is even in the frequency and takes conjugate values at conjugate frequencies; with an exact integral the self-energies and inverse dressing functions are moreover complex differentiable there, so that the only singularities of the propagators off that axis are the zeros of the inverse dressing functions. Yang-Mills and QCD, one quark mass or any field configuration, finite and zero temperature, finite and zero spatial momentum.", "quantifier": "all complex frequencies off the imaginary axis, all momenta, nonzero gluon (and, in the vacuum part, quark) masses, inverse temperatures, chemical potentials, field configurations and constants; symmetries for every integrator that uses interior points and commutes with conjugation, holomorphy for the exact integral", "why_tests_cant": "holomorphy and the reflection principle are statements about an uncountable set of frequencies; a wrongly placed branch of a logarithm shows up only in some part of the plane", "anchors": ["qcd-sme/src/low_level/oneloop/thermal/ghost.rs", "qcd-sme/src/low_level/oneloop/thermal/gluon.rs", "qcd-sme/src/ym/thermal.rs", "qcd-sme/src/qcd/thermal.rs"]}
{"id": "C94", "title": "Pole-finding program: symmetric roots, residues of the propagator, and its table", "statement": "The example that searches the gluon poles never panics with 'Roots are not symmetric': when the root search succeeds the inverse dressing function is below the tolerance at the root, its opposite and their conjugates; its only panic is that no root was found. The reported vacuum momentum squares to minus the root times the squared mass and has nonnegative real part; the reported thermal energy is the conjugate of i times the root. At a simple zero, the residue formula it uses converges, as the step goes to zero, to the residue of the propagator itself (vacuum: in the variable s; thermal: in the squared frequency, at the conjugate zero). The output file has seven lines: temperature zero with the vacuum pole, then each temperature with the pole computed from the inverse temperature, mass and constant that belong to it; the plotted series are the real and imaginary parts, ratios and phases in the same order.", "quantifier": "all nonzero masses, positive temperatures, additive constants and values of the global constants, every integrator that uses interior points and commutes with conjugation (convergence of residues: the exact integral, every simple zero)", "why_tests_cant": "the symmetry check depends on the analytic structure at a point that is only known at run time, and convergence of a difference quotient is not visible in finitely many evaluations", "anchors": ["qcd-sme/examples/ym_thermal_gluon_poles.rs:find_pole", "qcd-sme/examples/ym_thermal_gluon_poles.rs:find_thermal_pole", "qcd-sme/examples/ym_thermal_gluon_poles.rs:main", "qcd-sme/src/utils.rs:compute_residue"]}
{"id": "C95", "title": "Hard-thermal-loop comparison program: the curves 'ours' approach the curves 'HTL'", "statement": "The example that compares the quark loop with the hard-thermal-loop formulas draws, for each temperature, two plots (real and imaginary parts) with four labelled curves at the 25 momenta 0.01, 0.03, ..., 0.49. Its closed formulas are the textbook hard-thermal-loop functions, satisfy the trace identity, and the longitudinal one is positive. As the temperature grows the difference of the loop and the formula is small with respect to the squared temperature, at every frequency and momentum, and the longitudinal ratio goes to one. All curves of the plots of imaginary parts are identically zero, whatever the quadrature rule.", "quantifier": "all nonzero frequencies and momenta, all positive temperatures, every integrator that uses interior points and commutes with conjugation (limit: the exact integral)", "why_tests_cant": "the agreement is a limit of large temperature; a plot at four temperatures cannot establish it", "anchors": ["qcd-sme/examples/qed_htl_limit.rs:f_htl", "qcd-sme/examples/qed_htl_limit.rs:g_htl", "qcd-sme/examples/qed_htl_limit.rs:f_ours", "qcd-sme/examples/qed_htl_limit.rs:g_ours", "qcd-sme/examples/qed_htl_limit.rs:main"]}
{"id": "C96", "title": "Yang-Mills propagator program: files, plots and normalisation", "statement": "The example that tabulates the Yang-Mills gluon propagators writes thirteen files with different names: the vacuum propagator, then for each of six temperatures the longitudinal and the transverse propagator computed with the mass, additive constant and regulator that belong to that temperature; each row is a momentum 0.2, 0.21, ..., 3 GeV and the propagator normalised to 1/p^2 at 4 GeV. The curves of the four plots are the second columns of the files, low and high temperatures, each with its label. Keeping the real part of the propagators loses nothing.", "quantifier": "all values of the global constants, every integrator (real part: those that use interior points and commute with conjugation), all momenta", "why_tests_cant": "the program is a chain of loops over parallel tables indexed by position; a misaligned index gives plausible curves and the output of a run is not checked", "anchors": ["qcd-sme/examples/ym_thermal_gluon_propagator.rs:main"]}
{"id": "C97", "title": "Thermal dressing functions and propagators at real frequencies are real, and do not depend on how the frequency is given", "statement": "At a real nonzero frequency the inverse dressing function, the dressing function and the propagator (ghost, longitudinal and transverse gluon; Yang-Mills, one quark mass, any field configuration; finite and zero temperature; finite and zero momentum) have zero imaginary part, so the real part kept by the programs is the whole value. A real frequency and the same frequency given as a complex number lead to the same value.", "quantifier": "all real nonzero frequencies, nonzero masses, momenta, positive inverse temperatures, chemical potentials, constants and field configurations; imaginary part: every integrator that uses interior points and commutes with conjugation; entry points: every integrator", "why_tests_cant": "a statement about all arguments of two separately compiled instantiations of each function", "anchors": ["qcd-sme/src/ym/thermal.rs", "qcd-sme/src/qcd/thermal.rs", "qcd-sme/src/low_level/oneloop/thermal/gluon.rs", "qcd-sme/src/low_level/oneloop/thermal/ghost.rs"]}
{"id": "C98", "title": "Gluon loop, ghost self-energy and gluon propagators at high temperature", "statement": "Divided by T squared, the thermal part of the gluon loop tends to minus the hard-thermal-loop polarization (the same function as for quarks, C75), whatever the gluon mass, and that of the ghost self-energy tends to zero. T squared times the longitudinal or transverse gluon propagator tends to 3/(16 pi^2) divided by the sum of the hard thermal loops: the gluons count once and every flavour 1/(2 nc), with T^2 replaced by T^2 + 3 mu^2/pi^2 when the chemical potential grows with the temperature. The limit is a positive number. The zero-frequency functions tend to the same limits at the frequency of the regulator.", "quantifier": "all nonzero real frequencies, momenta and gluon masses, all quark masses, field configurations, additive constants, and chemical potentials with mu/T convergent; exact integrals", "why_tests_cant": "a limit of infinitely many values of an improper integral", "anchors": ["qcd-sme/src/ym/thermal.rs", "qcd-sme/src/qcd/thermal.rs", "qcd-sme/src/low_level/oneloop/thermal/gluon.rs", "qcd-sme/src/low_level/oneloop/thermal/ghost.rs"]}
{"id": "C99", "title": "Quark polarizations and gluon propagators at high density", "statement": "At a large chemical potential, at zero temperature or at any temperature that grows less than the chemical potential, -2 nc times the thermal part of the quark polarization divided by mu squared tends to the hard-thermal-loop function with T^2 replaced by 3 mu^2/pi^2. mu squared times the gluon propagator tends to 3/(16 pi^2) divided by nf/(2 nc) times that function, also for a field configuration, the flavours of all its quarks being counted.", "quantifier": "all nonzero real frequencies and momenta, gluon and quark masses, additive constants, field configurations with at least one flavour; inverse temperatures with beta mu going to infinity for the polarizations, all fixed temperatures and zero temperature for the propagators; exact integrals", "why_tests_cant": "a limit of infinitely many values of an improper integral", "anchors": ["qcd-sme/src/qcd/thermal.rs", "qcd-sme/src/low_level/oneloop/thermal/gluon.rs"]}
{"id": "C100", "title": "Comparison of the gluon propagator with the hard-thermal-loop mass", "statement": "In the example program of the asymptotics of the gluon propagator, each evaluation uses the numbers of colors and fermions it is given and leaves the library's constants as they were; the whole run changes the default tolerance and nothing else, and draws two plots with twelve labelled curves each. The logarithm computed with the library and the known logarithm of the thermal mass differ, at high temperature and at high chemical potential, by one and the same constant, whatever the numbers of colors and fermions; the constant tuned into the program (2.02) is right to 0.002, so the two functions agree to 0.002 at all sufficiently high temperatures and chemical potentials.", "quantifier": "all histories of setter calls before the run, all integrators for the effects; all nonzero numbers of colors, all numbers of fermions (nonzero at high density), all chemical potentials with a limit of mu/T, all fixed temperatures, exact integrals for the limits", "why_tests_cant": "the agreement is a limit of infinitely many values of an improper integral, and restoring the constants must hold for every earlier history", "anchors": ["qcd-sme/examples/qcd_gluon_propagator_asymptotics.rs", "qcd-sme/src/consts.rs", "qcd-sme/src/qcd/thermal.rs"]}
{"id": "C101", "title": "Thermodynamics of the quark charge density", "statement": "The charge density scales like the third power of the units, is continuous in mass, temperature and chemical potential, equals nc (mu T^2/3 + mu^3/(3 pi^2)) for massless quarks, tends to the zero-temperature density as T goes to zero, to the massless formula at high temperature and to nc mu^3/(3 pi^2) at high density. Every density has exactly one chemical potential at every temperature; a chemical potential that the library returns lies between the exact ones of the densities n - tol and n + tol, and is as close as wanted to the exact one for a small enough tolerance; the exact one tends to the zero-temperature one at low temperature.", "quantifier": "all masses, positive temperatures, chemical potentials, densities, tolerances; exact integrals", "why_tests_cant": "statements about limits, continuity and all real densities", "anchors": ["qcd-sme/src/qcd/thermal.rs: charge_density, charge_density_zero_temp, chemical_potential, chemical_potential_zero_temp"]}
{"id": "C102", "title": "Plots of the charge density and of the chemical potential", "statement": "The charge density program draws eleven labelled curves of 4000 chemical potentials from -2: each vanishes at mu = 0 and is antisymmetric about it, the thermal ones are strictly increasing, the zero-temperature one is nondecreasing and vanishes exactly up to the quark mass. The chemical potential program changes the default tolerance and no other constant, ends without panic exactly if all its calls do, and then draws the exact inverse of the zero-temperature density and, for each temperature, chemical potentials that give the density of their abscissa to 10^-5 (zero for zero density). The detail plots of both programs have three curves and eleven labels, so they do not satisfy the condition for a drawable plot.", "quantifier": "all values of the library's constants, all integrators (with the laws named in each theorem), all points of the grids", "why_tests_cant": "the programs only produce images; the curves hold for all constants and for any quadrature; whether the labels match is a property of the data handed to the plotting library", "anchors": ["qcd-sme/examples/qcd_quark_charge_density.rs: main", "qcd-sme/examples/qcd_quark_chemical_potential.rs: main"]}
{"id": "C103", "title": "Plots of the gluon propagator and of its quark polarization", "statement": "The four gluon plot programs draw, for every point of a grid of the intended size, one labelled curve per temperature (or momentum) and one for the limit. The functions are complex and the curves keep the real part: nothing is lost, the imaginary parts vanish. The curve labelled T = 0 is the limit of the thermal functions as T goes to zero (propagators where they have no pole, integrands except at the Fermi momentum), and the curve labelled p = 0 is the limit of both the longitudinal and the transverse integrand as the momentum vanishes.", "quantifier": "all values of the library's constants (nonzero regulator and quark mass), all integrators that use interior points and commute with conjugation, all points of the grids", "why_tests_cant": "the programs only produce images, and limits in temperature and momentum cannot be computed", "anchors": ["qcd-sme/examples/qcd_gluon_propagator.rs: main", "qcd-sme/examples/qcd_gluon_polarization_quark.rs: main", "qcd-sme/examples/qcd_gluon_polarization_quark_integrand.rs: main", "qcd-sme/examples/qcd_gluon_quark_polarization.rs: main"]}
{"id": "C104", "title": "Comparison of gluon dressing functions", "statement": "The comparison program writes six files with different names, each with the squared momenta and the values of one parameter set, draws the same six curves, leaves the number of fermions at zero and changes no other constant. The two curves without quarks are identical, that of Yang-Mills theory, although they are called with different quark masses. The constant it adds to f0 cancels the constant of the quark loop: at large momentum a curve approaches (13/18) ln(p^2/m^2) + 17/18 + f0 - (2/9)(nf/nc) ln(p^2/mq^2), over z.", "quantifier": "all values of the library's constants before the run; the shift for all masses, numbers of quarks, f0 and z", "why_tests_cant": "history of the global constants, and an asymptotic statement", "anchors": ["qcd-sme/examples/qcd_gluon_propagator_compare.rs: do_dressing, main"]}
{"id": "C105", "title": "The library agrees everywhere with the independent program that produced its test values", "statement": "The reference values of the unit tests come from a Python program, tests/numerics.py, written with other variables, other groupings, other arguments of the logarithms and without special versions for equal or vanishing masses. Each of its functions has the same value as the library function it tests: the vacuum functions f, f_xi, f_q, f_q_crossed and g (up to the factor 12 the program leaves out) and the inverse dressing functions, the tadpole integrands, the loop integrands and their mass derivatives at generic and at zero momentum, the ghost self-energy, and the longitudinal and transverse glue and quark polarizations. Where the program shifts the frequency by 1E-16 the values agree at the shifted frequency, and at zero frequency they tend to those of the zero_matsubara functions as the shift goes to zero.", "quantifier": "vacuum: all complex s off the negative real axis, all positive real s, all gauge parameters, constants and quark masses; thermal: all real or complex frequencies and masses, momenta p != 0, q > 0, temperatures and chemical potentials; three colors for the quark functions of the program", "why_tests_cant": "the unit tests compare the two at a handful of points; the formulas are different and their equality involves branches of square roots and logarithms", "anchors": ["tests/numerics.py", "qcd-sme/src/low_level/oneloop/thermal/mod.rs", "qcd-sme/src/low_level/oneloop/thermal/gluon.rs", "qcd-sme/src/low_level/oneloop/gluon.rs"]}
{"id": "C106", "title": "Python bindings and conversion of tabulated propagators", "statement": "The four functions of the Python extension return the values of the library functions, for every real or complex argument; on the positive real axis the complex ones return the real values. The script tests/ym_gluon_propagator.py converts a table of the propagator computed with Z = 2.684 and f0 = -0.876 into the one for another f0: for a table of the library's static longitudinal or transverse propagator it returns the library's propagator at the new f0, divided by four times its value at p = 2, for all momenta of the table in order; lines without sixteen columns are skipped. Without a line for p = 2 it raises AssertionError.", "quantifier": "all arguments; all tables, momenta, masses, temperatures, values of f0 and integrators", "why_tests_cant": "all tables, and an identity between library functions at different constants", "anchors": ["python/pyqcd_sme_so.pyx", "tests/ym_gluon_propagator.py: read_file_data", "qcd-sme/src/ym/thermal.rs: zero_matsubara::gluon"]}
{"id": "C107", "title": "No poles of the vacuum propagators at Euclidean momenta", "statement": "At every Euclidean momentum (s > 0) the inverse dressing functions of ghost and gluon are positive, so that dressing functions and propagators are defined (no division by zero) and positive: for the ghost in the gauges 0 <= xi <= 2 if g0 >= -5/24; for the Yang-Mills gluon in the gauges 0 <= xi <= 13/3 if f0 >= -0.876 + xi/12, with the dressing function in the Landau gauge below 18/(13 ln(1+s)); for QCD with any list of quarks and N flavours per colour, if 2N/9 + xi/6 <= 13/18 and f0 >= -0.876 + xi/12 + (2N/9) ln rho, where no quark is lighter than m/sqrt(5 rho), rho >= 1 (for the crossed functions, 4N/9 more). Outside, poles do exist: for g0 < -5/24 the ghost has exactly one Euclidean pole, for f0 <= -2.15 the gluon has at least two.", "quantifier": "every momentum s > 0, every renormalisation constant and gauge in the ranges given, every list of quarks, every state of the globals", "why_tests_cant": "the absence of a zero of a function on a half line cannot be sampled: the functions are transcendental, with cancellations of five orders between their terms at both ends", "anchors": ["qcd-sme/src/low_level/oneloop/gluon.rs: f_sep, f_xi_sep, f_q, f_q_crossed", "qcd-sme/src/low_level/oneloop/ghost.rs: g_sep", "qcd-sme/src/ym/gluon.rs: dressing, propagator", "qcd-sme/src/ym/ghost.rs: dressing, propagator", "qcd-sme/src/qcd/gluon.rs: dressing_w_field_config, propagator_w_field_config, propagator_crossed_w_field_config"]}
{"id": "C108", "title": "The thermal integrands never leave the domain of their operations", "statement": "Every integrand of the thermal module (tadpoles, two-propagator integrals, their first and second mass derivatives, the ghost self-energy, the longitudinal and transverse glue and quark parts of the gluon polarization, at non-zero and zero temperature) is evaluated without dividing by zero and without a logarithm of zero or a square root of a negative number, at every loop momentum q > 0, for every real non-zero or complex not purely imaginary frequency, every momentum p != 0, all masses, equal or not, zero or not (gluon mass not zero in the ghost and gluon parts), every temperature and chemical potential; likewise the versions for zero momentum. The versions for zero Matsubara frequency are undefined exactly at the loop momenta q = p/2 and 2qp = |p^2 -+ m^2| (quark parts: only q = p/2). At p = 0 the general versions divide by zero, and so does the longitudinal glue part at frequency 0.", "quantifier": "every loop momentum, frequency (real or complex), momentum, mass, temperature, chemical potential and state of the globals", "why_tests_cant": "the arguments of the logarithms are quadratic in the complex frequency; that none of them vanishes for any combination of the arguments cannot be sampled, and a NaN at one abscissa spoils the whole integral", "anchors": ["qcd-sme/src/low_level/oneloop/thermal/mod.rs: i_m_m_i ... d_i_0_0_t_i", "qcd-sme/src/low_level/oneloop/thermal/zero_momentum.rs", "qcd-sme/src/low_level/oneloop/thermal/zero_matsubara.rs", "qcd-sme/src/low_level/oneloop/thermal/ghost.rs: self_energy_thermal_part_landau_i", "qcd-sme/src/low_level/oneloop/thermal/gluon.rs: polarization_glue_l_thermal_part_landau_i ... polarization_quark_t_thermal_part_zero_temp_landau_i"]}
{"id": "C109", "title": "Where the dressing functions and propagators are defined", "statement": "In vacuum, the loop functions and the inverse dressing functions (ghost, gluon without quarks, with one quark mass, with the crossed diagram, with any list of quarks) are computed without dividing by zero and without leaving the domain of the logarithm and of the square root at every real squared momentum s > 0 and every complex s off the negative real axis, for all non-zero quark masses; the dressing functions and propagators wherever the inverse dressing function is not zero. At non-zero temperature the same holds of every public integral, inverse dressing function, dressing function and propagator of the thermal modules, including those for zero Matsubara frequency, zero momentum, zero temperature and for a list of quarks, with any numerical integrator that reads the integrand strictly inside the interval only. Exceptions: the ghost at zero Matsubara frequency is defined exactly when the integrator reads the integrand at no pole (so with a rule reading the middle of the interval it is undefined at p = 2 for all masses and temperatures); the zero-temperature quark parts are undefined when the chemical potential equals the quark mass; the gluon functions are undefined for massless quarks.", "quantifier": "every frequency (real or complex), momentum, mass, quark list, temperature, chemical potential, additive constant, gauge parameter, state of the globals and numerical integrator", "why_tests_cant": "a single undefined abscissa turns the result into NaN; the absence of such a point for all arguments, and its presence at isolated ones (p = 2, mu = mq), cannot be sampled", "anchors": ["qcd-sme/src/low_level/oneloop/ghost.rs", "qcd-sme/src/low_level/oneloop/gluon.rs", "qcd-sme/src/low_level/oneloop/thermal/gluon.rs: *_w_method", "qcd-sme/src/low_level/oneloop/thermal/ghost.rs: zero_matsubara::self_energy_thermal_part_landau", "qcd-sme/src/ym/thermal.rs", "qcd-sme/src/qcd/thermal.rs", "qcd-sme/src/qcd/gluon.rs"]}
{"id": "C110", "title": "The headers for C, C++ and Cython define the complex type", "statement": "The build script writes qcd_sme.h, qcd_sme.hpp and qcd_sme.pxd below target/<profile>/include, where target is the directory of the crate if it exists and that of the workspace otherwise, and touches no other file. Each header is the generated text with its first declaration of C as an alias of a generic type replaced by the definition of a structure with fields re and im, in this order, and of C as that structure; everything before and after is kept, a text without the declaration is unchanged, whatever white space separates its words. If there was one declaration none is left, and repeating the step changes nothing. If a text cannot be generated, or the directory of the crate is not known, the script panics and the later headers are not touched.", "quantifier": "every generated text, position and spacing of the declaration, build profile, directory layout and previous contents of the files", "why_tests_cant": "the generator's output is arbitrary text; that a replacement never creates or leaves a declaration, for every text around it, is not decided by building once", "anchors": ["qcd-sme/build.rs: main"]}
{"id": "C111", "title": "Energies and distributions in floating-point arithmetic", "statement": "Computed with numbers that are rounded, overflow and have infinities, NaN and two zeros: the energy of arguments that are not NaN is not NaN and not negative, does not depend on the signs of momentum and mass, and does not decrease with them. For a finite positive inverse temperature and finite chemical potential the Fermi-Dirac distribution is a number between 0 and 1 (0 and 2 for both signs of the chemical potential, whose sign does not matter), also when the exponential overflows, and does not increase with the energy nor decrease with the chemical potential; the Bose-Einstein distribution at energies not below the chemical potential is not NaN and not negative and does not increase with the energy; it is +infinity when the computed exponential is 1, e.g. at energy 2^-60 and beta 1, where the exact value is below 2^60. The Fermi momentum of two numbers of f64 with |m| < |mu| is not NaN if m*m does not overflow, but at |mu| = |m| it is NaN whenever m*m is rounded upwards, e.g. for 0.1. Without rounding the functions are those of the exact model.", "quantifier": "every monotone rounding that keeps 0, 1 and 2 with a monotone non-negative exponential, every argument including infinities and negative zeros; every pair of numbers of f64 for the Fermi momentum", "why_tests_cant": "the set of floating-point arguments is too large to enumerate, and the cases that fail (a square rounded upwards, an exponential rounded to one) are not those of usual tests", "anchors": ["qcd-sme/src/common/mod.rs: energy, energy_squared", "qcd-sme/src/common/thermal.rs: fermi_momentum, fermi_distribution, fermi_distribution_double, fermi_distribution_zero_temp, fermi_distribution_zero_chempot, bose_distribution, bose_distribution_zero_chempot", "qcd-sme/src/low_level/common/mod.rs: statistic_distribution_exponential"]}
{"id": "C112", "title": "Accuracy of the energy and of the distributions", "statement": "If every rounding and the exponential have a relative error of at most u, then, up to overflow and underflow, the computed energy has a relative error of at most (1+u)^2-1; the ratio of the computed and exact Fermi-Dirac distributions lies between 1/A and A, A = (1+u)/(1-u)^2 exp(((1+u)^2-1)|x|) with x = (en-mu) beta; the Bose-Einstein distribution has in addition the cancellation error of exp(x)-1. In f64 with a correctly rounded exponential, u = 2^-53, and the relative errors are at most 3u for the energy, (5|x|+4)u for the Fermi-Dirac and (6x+2/x+12)u for the Bose-Einstein distribution (2^-20 <= x).", "quantifier": "every rounding of relative error u <= 1/1024, every argument that is zero or between 2^-250 and 2^250 in absolute value, |x| <= 400", "why_tests_cant": "an error bound is a statement about every argument; a test compares a few values with a tolerance chosen by hand", "anchors": ["qcd-sme/src/common/mod.rs: energy", "qcd-sme/src/common/thermal.rs: fermi_distribution, fermi_distribution_zero_chempot, bose_distribution"]}
{"id": "C113", "title": "Residues and spectral functions in floating-point arithmetic", "statement": "compute_residue evaluates its function at z + 1e-12 and z - 1e-12. In f64 these two points are z itself if and only if |z| > 2^14 = 16384; then, whatever the function, the result of compute_residue is NaN or +infinity for real functions and NaN for complex ones, although in exact arithmetic it is the residue (e.g. for a pole at (600 MeV)^2 = 360000 MeV^2: the step is not scaled with the units). spectral_function of a function that takes conjugate values at conjugate points has, at a real point, imaginary part exactly zero in f64 and real part -2 v/(2 pi) with one rounding, v being the imaginary part of the function next to the axis.", "quantifier": "every number z of f64, every function of real or complex floating-point numbers", "why_tests_cant": "a test uses a few poles near 1; the failure is in a range of arguments and for all functions", "anchors": ["qcd-sme/src/utils.rs: compute_residue, compute_residue_with_eps, spectral_function"]}
{"id": "C114", "title": "Vacuum functions at very small momenta in floating-point arithmetic", "statement": "The infrared limits of the vacuum functions (C24) do not survive f64: at s = p^2/m^2 <= 2^-53 (down to 2^-200) the sum s + 1 is 1, its logarithm 0, and the cancellation of the inverse powers of s is lost. There the computed ghost function is between 0.08/s and 0.09/s (exact: between 5/24 and 0.2084) and the computed ghost dressing function between 10 s and 13 s, more than 10^7 times too small for every renormalisation constant in [-5/24, 10^6]; the computed gluon function is between 0.05/s^2 and 0.065/s^2 (exact: between 0.62/s and 0.63/s), so that the computed Landau-gauge propagator is between 14 s and 22 s instead of saturating between 1.58 and 1.62, and in the Feynman gauge it is negative where the exact one is positive.", "quantifier": "every number s of f64 between 2^-200 and 2^-53, every renormalisation constant of absolute value at most 10^6", "why_tests_cant": "tests use momenta of order one; the loss of digits is a property of every momentum of a range, with the roundings of some forty operations", "anchors": ["qcd-sme/src/low_level/oneloop/ghost.rs: g, g_sep", "qcd-sme/src/low_level/oneloop/gluon.rs: f, f_sep, f_xi", "qcd-sme/src/ym/ghost.rs: dressing_landau, propagator_landau", "qcd-sme/src/ym/gluon.rs: dressing_landau, propagator_landau, dressing, propagator"]}
{"id": "C115", "title": "Accuracy of the vacuum functions in floating-point arithmetic", "statement": "In f64 with correctly rounded operations, square root and logarithm, for every momentum p^2/m^2 between 10^-6 and 10^6 the computed one-loop functions of the ghost, the gluon (Landau part and gauge part) and the two quark loops, and the inverse dressing functions in every gauge, are numbers whose distance from the exact values is at most 40 to 180 roundings (2^-53) of the sum of the absolute values of the terms of the formula. For p^2/m^2 between 1/10 and 10 these errors are at most 10^-10, 10^-8, 10^-9, 10^-10 and 10^-9, and the computed dressing functions and propagators in the Landau gauge have relative errors of at most 10^-7 for all renormalisation constants down to -1/5 (ghost) and -4/5 (gluon), close to the values -5/24 and -0.876 of C107.", "quantifier": "every number s of f64 in the range, every renormalisation constant and gauge parameter of f64 of absolute value at most 10^6 (100 for the propagators)", "why_tests_cant": "a test compares a few arguments with reference numbers up to a tolerance; the error after some forty roundings has to be bounded for every argument", "anchors": ["qcd-sme/src/low_level/oneloop/ghost.rs: g, dressing_inv_landau_sep, dressing_inv_sep", "qcd-sme/src/low_level/oneloop/gluon.rs: f, f_xi, f_q, f_q_crossed", "qcd-sme/src/ym/ghost.rs: dressing_inv_landau, dressing_inv, dressing_landau, propagator_landau", "qcd-sme/src/ym/gluon.rs: dressing_inv_landau, dressing_inv, dressing_landau, propagator_landau"]}
{"id": "C116", "title": "The search for the chemical potential at low temperature", "statement": "Although every density has exactly one chemical potential (C101), the function that computes it from the density fails at low temperatures: for every density n with tol < |n| < |m| (the numbers in the same units of momentum) it panics at all sufficiently low temperatures, with exact integrals; for 0 < |n| < tol and |n| < |m| it returns the number n itself as the chemical potential, although the exact chemical potential exceeds the mass at all sufficiently low temperatures.", "quantifier": "every mass, density, tolerance of the integration method (or the default one) and number of colours, all temperatures below some positive one", "why_tests_cant": "a test can try some temperatures; that a thousand iterations fail at every temperature below a bound, for every density below the mass, needs the behaviour of the iteration in the limit", "anchors": ["qcd-sme/src/qcd/thermal.rs: quark::chemical_potential_with_method, quark::chemical_potential", "qcd-sme/src/utils.rs: find_root"]}
{"id": "C117", "title": "At low temperatures the thermal propagators have no poles and are positive", "statement": "For every Euclidean frequency and momentum (not both zero; the functions with a finite momentum need a nonzero frequency, those at zero frequency a nonzero momentum) there is a temperature below which the thermal inverse dressing functions, dressing functions and propagators in the Landau gauge are positive real numbers: the Yang-Mills ghost for every g0 >= -5/24, the Yang-Mills gluon (longitudinal and transverse, finite momentum, zero momentum and zero frequency) for every f0 >= -0.876, and the QCD gluon with any list of quarks for a chemical potential below every quark mass, under the conditions of C107 on the number of flavours and on f0.", "quantifier": "all real frequencies, momenta, gluon masses, additive constants in the stated ranges, lists of quarks, chemical potentials below the lightest quark; all temperatures below the threshold; exact integrator", "why_tests_cant": "The claim is about the limit of zero temperature, which no run reaches, and about all momenta and constants; a plot samples finitely many of them.", "anchors": ["qcd-sme/src/ym/thermal.rs: ghost, gluon, zero_momentum, zero_matsubara dressing and propagator functions", "qcd-sme/src/qcd/thermal.rs: gluon *_landau_w_field_config", "qcd-sme/src/low_level/oneloop/thermal/: thermal parts"]}
{"id": "C118", "title": "The root finder in floating-point arithmetic", "statement": "On f64, find_root panics exactly when the guesses are the same number (0 and -0 are, NaN and NaN are not) or the tolerance is not a positive number (NaN included); a returned pair is a point and the function's finite value there, below the tolerance; the point is finite if the function has no finite values at infinity and NaN. If a function value is infinite or NaN, or the function takes the same value at both guesses, there is no root returned: the search fails closed. It also fails for the linear function f(z) = z when the product of the guesses overflows, although one step finds the root in exact arithmetic. For numbers of ordinary size each computed point is within 30 roundings of the terms of its formula from the zero of the secant; if the values at two guesses of the same sign have opposite signs, this is a relative error.", "quantifier": "all functions f64 -> f64, guesses, tolerances and iteration limits, NaN, infinities and signed zeros included; the accuracy for all numbers between 1e-60 and 1e60 in absolute value", "why_tests_cant": "The inputs include every f64 value and every function; overflow, NaN and coinciding values occur only for special combinations which tests do not sample.", "anchors": ["qcd-sme/src/utils.rs: find_root", "qcd-sme/src/types.rs: Num for R"]}
{"id": "C119", "title": "Charge density and chemical potential at zero temperature in the arithmetic of f64", "statement": "In f64, charge_density_zero_temp is 0 up to the mass and odd in the chemical potential for every pair of numbers (NaN and infinities included); above the mass its relative error is at most 2e-14 times mu^2/(mu^2-m^2), the loss of digits near the threshold. chemical_potential_zero_temp is 0 at zero density, odd in the density, and has a relative error of at most 1.4e-13 if powf is accurate to one unit in the last place. The round trip of C51 is nevertheless lost for small densities: at mass 1, if 3 pi^2 |n| / nc is at most 2^-81, the chemical potential returned is exactly the mass, where the density is 0.", "quantifier": "all f64 masses, chemical potentials and densities for the sign; all masses up to 1e60 and chemical potentials and densities between 1e-60 and 1e60 in absolute value, and 1 to 10^6 colours, for the accuracy", "why_tests_cant": "The error depends on cancellations which occur only near the threshold, and a bound for all arguments cannot be sampled.", "anchors": ["qcd-sme/src/qcd/thermal.rs: charge_density_zero_temp, chemical_potential_zero_temp", "qcd-sme/src/common/thermal.rs: fermi_momentum"]}
{"id": "C120", "title": "Phase boundaries, grids and fits in floating-point arithmetic", "statement": "In f64, is_deconfined_phase panics exactly if the boundary is empty before its first zero temperature or begins above mu (never for NaN); for numbers it gives the answer of exact arithmetic unless the temperature is within 1e-14 of the segment of the boundary at mu; a NaN chemical potential counts as deconfined at every nonzero temperature which is not on the boundary. The polynomial of the fit is computed within four roundings per coefficient, relative to the size of its terms. A grid of temperatures, chemical potentials or momenta whose range is within a quarter of a step of n steps has n+1 points, each within 1e-15 of vmin + k dv relative to its terms, and strictly increasing if the first point is not more than 1e12 steps from zero; a NaN range or step gives a single point, a zero step and a nonempty range a panic (capacity overflow).", "quantifier": "all boundaries, points, coefficients and grids of f64 numbers, NaN and infinities included for the panics; boundaries, coefficients and steps of ordinary size for the accuracies", "why_tests_cant": "Agreement with exact arithmetic depends on the rounding of every interpolation, grid point and coefficient; tests sample a few boundaries and no NaN.", "anchors": ["tc_long_prop/src/lib.rs: is_deconfined_phase, reduce_phase_boundary, parametric_phase_diagram", "tc_long_prop/src/bin/physical_tc.rs: compute_vec"]}
{"id": "C121", "title": "Parallel scans give the table of the loop on every schedule; a setter among them does not", "statement": "A scan xs.par_iter().map(f).collect() whose evaluations only read the global constants gives, on every schedule of the threads and their accesses, the vector that xs.iter().map(f).collect() gives (or a panic exactly if some call panics), takes a bounded number of steps, never gets stuck and leaves the constants alone. In particular tables of charge_density, charge_density_zero_temp, chemical_potential and chemical_potential_zero_temp computed in parallel are the sequential ones, in order. If another thread calls set_number_of_colors during the scan this fails: a schedule gives a charge density that belongs to no number of colours, and two items that each set their own number of colours can both be evaluated with that of the second.", "quantifier": "all lists of items, all interleavings of the accesses of any number of threads to the statics, all evaluations (read-only programs), all deterministic quadrature algorithms, all values of the constants", "why_tests_cant": "the example programs and tc_long_prop compute their tables in parallel over mutable statics; a test sees a few schedules", "anchors": ["qcd-sme/src/consts.rs: nc, set_number_of_colors, get_default_integration_method", "qcd-sme/src/qcd/thermal.rs: charge_density, chemical_potential, charge_density_zero_temp, chemical_potential_zero_temp, charge_density_i", "qcd-sme/src/utils.rs: find_root", "qcd-sme/examples/qcd_quark_charge_density.rs: main", "qcd-sme/examples/qcd_quark_chemical_potential.rs: main", "tc_long_prop/src/bin/one_mass_overall.rs: main"]}
{"id": "C122", "title": "Accuracy of the residues in floating-point arithmetic", "statement": "In f64, the reciprocal of a complex number is right up to 6e-15 in each component, and compute_residue gives, with a relative error of 1e-13 in each component, 2 eps/(1/f(z+eps) - 1/f(z-eps)) formed from the values of the function, when these are of usual size and have opposite signs. For a simple pole r/(w-z) the result is r times 2e-12 over the distance of the two rounded points z+1e-12 and z-1e-12; so for a pole of absolute value up to 2^n (n at most 10) the default step gives the residue only up to 1.3e-4 * 2^n of itself, and this loss is real: for a pole at 1.5 the result is off by at least 8e-5, for a pole at 10000 by at least 44% of the residue.", "quantifier": "all functions, all poles and residues that are f64 numbers of the stated sizes", "why_tests_cant": "rounding errors depend on the binary expansion of the pole; a test sees a few poles and cannot bound the error for all", "anchors": ["qcd-sme/src/utils.rs: compute_residue, compute_residue_with_eps", "qcd-sme/src/types.rs: inv"]}
{"id": "C123", "title": "Charge density at finite temperature in floating-point arithmetic", "statement": "In f64, at every point of the interval of integration that is not extremely close to zero (at least 2^-200), the integrand of charge_density is a finite number with the sign of the chemical potential, it changes exactly its sign with the chemical potential and does not decrease when the chemical potential increases, whatever the roundings. As a function of the momentum its error is at most 24 N + 48 roundings (2^-53) of the sum of the densities of quarks and antiquarks, where N bounds beta times (energy + |mu|); with the rounding of the momentum and of the jacobian, at most 104 N + 152. Two losses are real: at points below 2^-513, and at zero, the integrand is NaN; and a chemical potential below 2^-54 of the mass gives exactly the result of mu = 0, the quadrature of the function zero, although the density is positive.", "quantifier": "all masses, inverse temperatures, chemical potentials, points of the interval and external quadratures; the accuracy for momenta, masses and chemical potentials between 1e-10 and 1e10 (the last two may be zero)", "why_tests_cant": "rounding errors, overflow and the order of rounded values depend on the binary expansion of every intermediate number; a test sees a few of them", "anchors": ["qcd-sme/src/qcd/thermal.rs: charge_density_i, charge_density_with_method, charge_density", "qcd-sme/src/common/thermal.rs: fermi_distribution"]}
{"id": "C124", "title": "Accuracy of the gluon functions with quarks in floating-point arithmetic", "statement": "In f64, for momenta p^2/m^2 between 10^-6 and 10^6 and any list of up to 10^5 quark masses (mq/m and p^2/mq^2 between 10^-6 and 10^6), computed with a FieldConfig whose ratios of masses and of the numbers of flavours and colours are themselves rounded, the inverse dressing functions of the gluon (Landau and general gauge, standard and crossed) are numbers whose distance from the exact values is at most 660 roundings (2^-53), and two more for every entry of the list, of the sum of the absolute values of the terms. The functions that take one quark mass and the global numbers of colours and flavours have an error of at most 660 roundings of that sum. In an asymptotically free theory away from the first pole the computed dressing function and propagator in the Landau gauge are right to six digits for p^2 between m^2/10 and 10 m^2 and between mq^2/10 and 100 mq^2 for every quark. The chiral limit is not: one quark with mq^2 < 2^-56 p^2 makes every computed inverse dressing function minus infinity and the propagator zero, although the exact propagator is positive (e.g. mq = 2^-30 m at p = m, one flavour of three colours, f0 = 4).", "quantifier": "all f64 momenta, renormalisation constants, gauge parameters and masses in the given ranges; all lists of quarks; all numbers of colours and flavours up to 10^6", "why_tests_cant": "An error bound for every momentum and every list of quarks cannot be tested; tests compare a few values with a tolerance and never use a light quark.", "anchors": ["qcd-sme/src/qcd/gluon.rs: dressing_inv_landau_w_field_config, dressing_inv_w_field_config, dressing_crossed_inv_w_field_config, propagator_landau_w_field_config, dressing_inv_landau, dressing_inv, dressing_crossed_inv", "qcd-sme/src/qcd/types.rs: FieldConfig::new, QuarkInternal::new", "qcd-sme/src/low_level/oneloop/gluon.rs: f_q, f_q_crossed"]}
{"id": "C125", "title": "Accuracy of the vacuum functions of complex arguments in floating-point arithmetic, and the sign of zero on the cut", "statement": "In f64, for complex p^2/m^2 at an angle of at most 135 degrees from the positive axis and of norm between 10^-6 and 10^6, the vacuum functions of the ghost, the gluon and the quark loops are numbers whose distance from the exact values is at most 300 (ghost), 23 (gauge part of the ghost), 1500 (gluon), 500 (gauge part of the gluon), 6100 and 7800 (quark loops) roundings (2^-53) of the sum of the norms of the terms; the inverse dressing functions of the ghost and of the gluon are within 305 to 1510 roundings for every renormalisation constant and gauge parameter up to 10^6. Wherever the inverse dressing function is at least twice its error bound, the relative errors of the dressing function and the propagator are at most twice that of the inverse plus 132 and 310 roundings. The computed reciprocal, square root and logarithm are within 66, 35 and 18 roundings. The values computed at conjugate arguments are exactly conjugate, whatever the rounding errors. At positive real numbers the functions of complex arguments agree with those of real arguments to within the errors of both, and their imaginary parts are exactly zero. The square root of an imaginary number is right to within 8 roundings. On the negative axis the sign bit of a zero imaginary part chooses the side of the cut: the imaginary parts of the logarithm, of the root and of g_xi are opposite for +0 and -0. Hence -(x + 0i) and (-x) + 0i, which compare equal, have values of g_xi that differ by at least 1/2.", "quantifier": "all complex f64 arguments in the given region; all renormalisation constants and gauge parameters up to 10^6; all negative arguments for the cut", "why_tests_cant": "An error bound for every complex argument cannot be tested, and tests compare numbers by value, so they do not tell the two zeros apart.", "anchors": ["qcd-sme/src/low_level/oneloop/ghost.rs: g, g_xi", "qcd-sme/src/low_level/oneloop/gluon.rs: f, f_xi, f_q, f_q_crossed", "qcd-sme/src/ym/ghost.rs: dressing_inv_landau, dressing_inv, dressing, propagator", "qcd-sme/src/ym/gluon.rs: dressing_inv_landau, dressing_inv, dressing, propagator", "qcd-sme/src/types.rs: Num for C, ln, sqrt, inv"]}
{"id": "C126", "title": "The vacuum functions off the real axis are finite and exactly conjugate in floating-point arithmetic, and computed spectral functions are exactly real", "statement": "In f64, for complex p^2/m^2 anywhere in the plane with parts up to 10^6 and at least 10^-13 away from the real axis, to the left of the origin and next to the cut as well, the vacuum functions of the ghost, the gluon and the quark loops and the inverse dressing functions are finite numbers, and their values at conjugate arguments are exactly conjugate. The same holds for the dressing functions and the propagators whenever the value is finite, in particular when the computed inverse dressing functions are at least 10^-30 in norm. Hence spectral_function, applied to any of them at any real number up to 10^6 in absolute value, returns an imaginary part that is exactly zero; its real part is -2 v / (2 pi) with one rounding for 2 v, two for 2 pi and one for the quotient, where v is the imaginary part of the function at the computed point x + i 10^-12.", "quantifier": "all complex f64 arguments in the given region; all renormalisation constants up to 10^90 and gauge parameters up to 10^6; all real f64 arguments up to 10^6 for the spectral functions", "why_tests_cant": "That no value next to the cut overflows or becomes NaN, and that two evaluations round symmetrically, is a claim about every argument.", "anchors": ["qcd-sme/src/utils.rs: spectral_function", "qcd-sme/src/ym/ghost.rs: dressing_inv, dressing, propagator", "qcd-sme/src/ym/gluon.rs: dressing_inv, dressing, propagator", "qcd-sme/src/low_level/oneloop/ghost.rs: g, g_xi", "qcd-sme/src/low_level/oneloop/gluon.rs: f, f_xi, f_q, f_q_crossed"]}
{"id": "C127", "title": "The gluon functions with quarks at complex arguments are finite, accurate and exactly conjugate in floating-point arithmetic, and their spectral functions are exactly real", "statement": "In f64, for complex p^2/m^2 off the real axis as in C126, for every field configuration (any number of entries up to 10^9, up to 10^6 flavours each, quark masses between 10^-6 and 10^6 gluon masses, p^2/mq^2 off the real axis too), the inverse gluon dressing functions with quarks, with and without crossed loops, in Landau gauge and in general gauges, are finite, and their values at conjugate arguments are exactly conjugate. The same holds for the dressing functions and the propagators whenever the value is finite, and for the variants of all these functions for one quark mass and the global ratio nf/nc. Hence spectral_function, applied to any of the functions of a field configuration at a real number, returns an imaginary part that is exactly zero, for quark masses up to three gluon masses. Within 135 degrees of the positive axis the inverse dressing functions, with lists of up to 10^4 entries, are also accurate: the computed value is the sum of the exact loops at arguments at most 20 roundings away from the exact ones, up to 7820 roundings (and five per entry) of the sum of the norms of the terms; dressing functions and propagators follow wherever the inverse is at least twice that error.", "quantifier": "all complex f64 arguments in the region, all lists of quarks, all renormalisation constants up to 10^90 and gauge parameters up to 10^6", "why_tests_cant": "The number of loops is unbounded, and every rounding on the way would have to be symmetric for every argument and mass.", "anchors": ["qcd-sme/src/qcd/gluon.rs: dressing_inv_w_field_config, dressing_w_field_config, propagator_w_field_config, dressing_crossed_inv_w_field_config, dressing_inv, dressing, propagator", "qcd-sme/src/qcd/types.rs: FieldConfig::new", "qcd-sme/src/utils.rs: spectral_function"]}
{"id": "C128", "title": "The integrands of the tadpole diagrams in floating-point arithmetic are accurate, have the right sign and grow with the temperature, except at very small momenta", "statement": "In f64, the integrands j_m_i, j_m_l_i, j_m_t_i, their first derivatives in the mass squared, the second derivative of j_m_t_i and the massless variants of all of them are never NaN for momenta between 10^-30 and 10^30 and masses up to 10^30, have the sign of the exact integrand (or are zero), and their size never decreases when the temperature is raised. For momenta between 10^-10 and 10^10, masses zero or in the same range and x = E*beta between 10^-5 and 390, their relative error is at most (x + 1/x + 22)*10^-15 for the massless and (3x + 1/x + 27)*10^-15 for the massive ones. When x is so small that exp(x) is rounded to one (for example q = 2^-60, beta = 1), the massless integrands are infinite although the exact j_0_i never exceeds 1/(2 PI^2 beta); at q = 0 five of them are NaN and two infinite. In the same way j_m_i, j_m_t_i and d2_j_m_t_i are infinite when the exponential at the computed energy is rounded to one. There the second derivatives d2_j_0_i and d2_j_0_l_i are infinite with the wrong sign (minus and plus infinity, while the exact ones are positive and negative). The computed energy of a massless particle is exactly its momentum, so that d_j_m_i, d_j_m_l_i and d2_j_m_t_i at zero mass equal their massless variants bit for bit. Without rounding all eighteen functions are those of exact arithmetic.", "quantifier": "all f64 momenta, masses and pairs of inverse temperatures in the ranges", "why_tests_cant": "The functions are evaluated at every node of every quadrature. Monotonicity and error bounds must hold for all pairs of numbers, and the failures are at momenta no test visits.", "anchors": ["qcd-sme/src/low_level/oneloop/thermal/mod.rs: j_m_i, j_0_i, j_m_l_i, j_0_l_i, j_m_t_i, j_0_t_i, d_j_m_i, d_j_0_i, d_j_m_l_i, d_j_0_l_i, d_j_m_t_i, d_j_0_t_i, d2_j_m_t_i, d2_j_0_t_i, d2_j_m_i, d2_j_0_i, d2_j_m_l_i, d2_j_0_l_i"]}
