import Verif.Lemmas.ThermalDefined

/-! # C108: the thermal functions never leave the domain of their operations

`P.f` is the function `f` of the library evaluated on numbers that may be undefined (`Model/PartialNum.lean`,
`Model/ThermalPartial.lean`): its result is `.val v` exactly if the evaluation divides by no zero and takes no logarithm of zero and no square root or
real logarithm of a negative number, where the program would get an infinity or a NaN. The equations below therefore say two things: the function
is defined at these arguments, and its value is that of the model used by the other claims, in which division by zero has no
effect. The frequency `om` is any real number but zero, or any complex number that is not purely imaginary. -/

namespace Qcd
open consts (Consts)
open PV Def

/-- **C108** The integrands of the tadpole integrals and of their mass derivatives are defined at every loop momentum. -/
theorem C108_tadpoles (q m beta : ℝ) (hq : 0 < q) (hb : 0 < beta) :
    P.thermal.j_m_i (.val q) (.val m) (.val beta) = .val (Qcd.thermal.j_m_i q m beta) ∧
    P.thermal.j_0_i (.val q) (.val beta) = .val (Qcd.thermal.j_0_i q beta) ∧
    P.thermal.j_m_l_i (.val q) (.val m) (.val beta) = .val (Qcd.thermal.j_m_l_i q m beta) ∧
    P.thermal.j_0_l_i (.val q) (.val beta) = .val (Qcd.thermal.j_0_l_i q beta) ∧
    P.thermal.j_m_t_i (.val q) (.val m) (.val beta) = .val (Qcd.thermal.j_m_t_i q m beta) ∧
    P.thermal.j_0_t_i (.val q) (.val beta) = .val (Qcd.thermal.j_0_t_i q beta) ∧
    P.thermal.d_j_m_i (.val q) (.val m) (.val beta) = .val (Qcd.thermal.d_j_m_i q m beta) ∧
    P.thermal.d_j_0_i (.val q) (.val beta) = .val (Qcd.thermal.d_j_0_i q beta) ∧
    P.thermal.d2_j_m_i (.val q) (.val m) (.val beta) = .val (Qcd.thermal.d2_j_m_i q m beta) ∧
    P.thermal.d2_j_0_i (.val q) (.val beta) = .val (Qcd.thermal.d2_j_0_i q beta) ∧
    P.thermal.d_j_m_l_i (.val q) (.val m) (.val beta) = .val (Qcd.thermal.d_j_m_l_i q m beta) ∧
    P.thermal.d_j_0_l_i (.val q) (.val beta) = .val (Qcd.thermal.d_j_0_l_i q beta) ∧
    P.thermal.d2_j_m_l_i (.val q) (.val m) (.val beta) = .val (Qcd.thermal.d2_j_m_l_i q m beta) ∧
    P.thermal.d2_j_0_l_i (.val q) (.val beta) = .val (Qcd.thermal.d2_j_0_l_i q beta) ∧
    P.thermal.d_j_m_t_i (.val q) (.val m) (.val beta) = .val (Qcd.thermal.d_j_m_t_i q m beta) ∧
    P.thermal.d_j_0_t_i (.val q) (.val beta) = .val (Qcd.thermal.d_j_0_t_i q beta) ∧
    P.thermal.d2_j_m_t_i (.val q) (.val m) (.val beta) = .val (Qcd.thermal.d2_j_m_t_i q m beta) ∧
    P.thermal.d2_j_0_t_i (.val q) (.val beta) = .val (Qcd.thermal.d2_j_0_t_i q beta) :=
  ⟨thermal_j_m_i_val q m beta hq hb,
    thermal_j_0_i_val q beta hq hb,
    thermal_j_m_l_i_val q m beta hq hb,
    thermal_j_0_l_i_val q beta hq hb,
    thermal_j_m_t_i_val q m beta hq hb,
    thermal_j_0_t_i_val q beta hq hb,
    thermal_d_j_m_i_val q m beta hq hb,
    thermal_d_j_0_i_val q beta hq hb,
    thermal_d2_j_m_i_val q m beta hq hb,
    thermal_d2_j_0_i_val q beta hq hb,
    thermal_d_j_m_l_i_val q m beta hq hb,
    thermal_d_j_0_l_i_val q beta hq hb,
    thermal_d2_j_m_l_i_val q m beta hq hb,
    thermal_d2_j_0_l_i_val q beta hq hb,
    thermal_d_j_m_t_i_val q m beta hq hb,
    thermal_d_j_0_t_i_val q beta hq hb,
    thermal_d2_j_m_t_i_val q m beta hq hb,
    thermal_d2_j_0_t_i_val q beta hq hb⟩

example := C108_tadpoles 1 0 2 (by norm_num) (by norm_num)

/-- **C108** The integrands of the two-propagator integrals and of their mass derivatives are defined at every loop momentum, frequency and
momentum `p ≠ 0`, for all masses, equal or not, zero or not. -/
theorem C108_diagrams {T : Type} [Num T] [NumDom T] (q : ℝ) (om : T) (ho : (toC om).re ≠ 0) (p m m1 m2 beta : ℝ) (hq : 0 < q) (hp : p ≠ 0) (hb : 0 < beta) :
    P.thermal.i_m_m_i (.val q) (.val om) (.val p) (.val m1) (.val m2) (.val beta) = .val (Qcd.thermal.i_m_m_i q om p m1 m2 beta) ∧
    P.thermal.i_m_m_i_same_mass (.val q) (.val om) (.val p) (.val m) (.val beta) = .val (Qcd.thermal.i_m_m_i_same_mass q om p m beta) ∧
    P.thermal.i_m_0_i (.val q) (.val om) (.val p) (.val m) (.val beta) = .val (Qcd.thermal.i_m_0_i q om p m beta) ∧
    P.thermal.i_0_0_i (.val q) (.val om) (.val p) (.val beta) = .val (Qcd.thermal.i_0_0_i q om p beta) ∧
    P.thermal.i_m_m_l_i (.val q) (.val om) (.val p) (.val m1) (.val m2) (.val beta) = .val (Qcd.thermal.i_m_m_l_i q om p m1 m2 beta) ∧
    P.thermal.i_m_m_l_i_same_mass (.val q) (.val om) (.val p) (.val m) (.val beta) = .val (Qcd.thermal.i_m_m_l_i_same_mass q om p m beta) ∧
    P.thermal.i_m_0_l_i (.val q) (.val om) (.val p) (.val m) (.val beta) = .val (Qcd.thermal.i_m_0_l_i q om p m beta) ∧
    P.thermal.i_0_0_l_i (.val q) (.val om) (.val p) (.val beta) = .val (Qcd.thermal.i_0_0_l_i q om p beta) ∧
    P.thermal.i_m_m_t_i (.val q) (.val om) (.val p) (.val m1) (.val m2) (.val beta) = .val (Qcd.thermal.i_m_m_t_i q om p m1 m2 beta) ∧
    P.thermal.i_m_m_t_i_same_mass (.val q) (.val om) (.val p) (.val m) (.val beta) = .val (Qcd.thermal.i_m_m_t_i_same_mass q om p m beta) ∧
    P.thermal.i_m_0_t_i (.val q) (.val om) (.val p) (.val m) (.val beta) = .val (Qcd.thermal.i_m_0_t_i q om p m beta) ∧
    P.thermal.i_0_0_t_i (.val q) (.val om) (.val p) (.val beta) = .val (Qcd.thermal.i_0_0_t_i q om p beta) ∧
    P.thermal.d_i_m_m_i (.val q) (.val om) (.val p) (.val m1) (.val m2) (.val beta) = .val (Qcd.thermal.d_i_m_m_i q om p m1 m2 beta) ∧
    P.thermal.d_i_m_m_i_same_mass (.val q) (.val om) (.val p) (.val m) (.val beta) = .val (Qcd.thermal.d_i_m_m_i_same_mass q om p m beta) ∧
    P.thermal.d_i_m_0_i (.val q) (.val om) (.val p) (.val m) (.val beta) = .val (Qcd.thermal.d_i_m_0_i q om p m beta) ∧
    P.thermal.d_i_0_0_i (.val q) (.val om) (.val p) (.val beta) = .val (Qcd.thermal.d_i_0_0_i q om p beta) ∧
    P.thermal.d_i_m_m_l_i (.val q) (.val om) (.val p) (.val m1) (.val m2) (.val beta) = .val (Qcd.thermal.d_i_m_m_l_i q om p m1 m2 beta) ∧
    P.thermal.d_i_m_m_l_i_same_mass (.val q) (.val om) (.val p) (.val m) (.val beta) = .val (Qcd.thermal.d_i_m_m_l_i_same_mass q om p m beta) ∧
    P.thermal.d_i_m_0_l_i (.val q) (.val om) (.val p) (.val m) (.val beta) = .val (Qcd.thermal.d_i_m_0_l_i q om p m beta) ∧
    P.thermal.d_i_0_0_l_i (.val q) (.val om) (.val p) (.val beta) = .val (Qcd.thermal.d_i_0_0_l_i q om p beta) ∧
    P.thermal.d_i_m_m_t_i (.val q) (.val om) (.val p) (.val m1) (.val m2) (.val beta) = .val (Qcd.thermal.d_i_m_m_t_i q om p m1 m2 beta) ∧
    P.thermal.d_i_m_m_t_i_same_mass (.val q) (.val om) (.val p) (.val m) (.val beta) = .val (Qcd.thermal.d_i_m_m_t_i_same_mass q om p m beta) ∧
    P.thermal.d_i_m_0_t_i (.val q) (.val om) (.val p) (.val m) (.val beta) = .val (Qcd.thermal.d_i_m_0_t_i q om p m beta) ∧
    P.thermal.d_i_0_0_t_i (.val q) (.val om) (.val p) (.val beta) = .val (Qcd.thermal.d_i_0_0_t_i q om p beta) :=
  ⟨thermal_i_m_m_i_val q om p m1 m2 beta hq ho hp hb,
    thermal_i_m_m_i_same_mass_val q om p m beta hq ho hp hb,
    thermal_i_m_0_i_val q om p m beta hq ho hp hb,
    thermal_i_0_0_i_val q om p beta hq ho hp hb,
    thermal_i_m_m_l_i_val q om p m1 m2 beta hq ho hp hb,
    thermal_i_m_m_l_i_same_mass_val q om p m beta hq ho hp hb,
    thermal_i_m_0_l_i_val q om p m beta hq ho hp hb,
    thermal_i_0_0_l_i_val q om p beta hq ho hp hb,
    thermal_i_m_m_t_i_val q om p m1 m2 beta hq ho hp hb,
    thermal_i_m_m_t_i_same_mass_val q om p m beta hq ho hp hb,
    thermal_i_m_0_t_i_val q om p m beta hq ho hp hb,
    thermal_i_0_0_t_i_val q om p beta hq ho hp hb,
    thermal_d_i_m_m_i_val q om p m1 m2 beta hq ho hp hb,
    thermal_d_i_m_m_i_same_mass_val q om p m beta hq ho hp hb,
    thermal_d_i_m_0_i_val q om p m beta hq ho hp hb,
    thermal_d_i_0_0_i_val q om p beta hq ho hp hb,
    thermal_d_i_m_m_l_i_val q om p m1 m2 beta hq ho hp hb,
    thermal_d_i_m_m_l_i_same_mass_val q om p m beta hq ho hp hb,
    thermal_d_i_m_0_l_i_val q om p m beta hq ho hp hb,
    thermal_d_i_0_0_l_i_val q om p beta hq ho hp hb,
    thermal_d_i_m_m_t_i_val q om p m1 m2 beta hq ho hp hb,
    thermal_d_i_m_m_t_i_same_mass_val q om p m beta hq ho hp hb,
    thermal_d_i_m_0_t_i_val q om p m beta hq ho hp hb,
    thermal_d_i_0_0_t_i_val q om p beta hq ho hp hb⟩

example := C108_diagrams 1 (2 : ℝ) (by simp) 3 0 1 2 5 (by norm_num) (by norm_num) (by norm_num)
example := C108_diagrams 1 (1 + 2 * Complex.I : ℂ) (by simp) (-3) 1 2 2 5 (by norm_num) (by norm_num) (by norm_num)

/-- **C108** The same for the functions for zero momentum. -/
theorem C108_zero_momentum_diagrams {T : Type} [Num T] [NumDom T] (q : ℝ) (om : T) (ho : (toC om).re ≠ 0) (m m1 m2 beta : ℝ) (hq : 0 < q) (hb : 0 < beta) :
    P.thermal.zero_momentum.i_m_m_i (.val q) (.val om) (.val m1) (.val m2) (.val beta) = .val (Qcd.thermal.zero_momentum.i_m_m_i q om m1 m2 beta) ∧
    P.thermal.zero_momentum.i_m_m_i_same_mass (.val q) (.val om) (.val m) (.val beta) = .val (Qcd.thermal.zero_momentum.i_m_m_i_same_mass q om m beta) ∧
    P.thermal.zero_momentum.i_m_0_i (.val q) (.val om) (.val m) (.val beta) = .val (Qcd.thermal.zero_momentum.i_m_0_i q om m beta) ∧
    P.thermal.zero_momentum.i_0_0_i (.val q) (.val om) (.val beta) = .val (Qcd.thermal.zero_momentum.i_0_0_i q om beta) ∧
    P.thermal.zero_momentum.i_m_m_l_i (.val q) (.val om) (.val m1) (.val m2) (.val beta) = .val (Qcd.thermal.zero_momentum.i_m_m_l_i q om m1 m2 beta) ∧
    P.thermal.zero_momentum.i_m_m_l_i_same_mass (.val q) (.val om) (.val m) (.val beta) = .val (Qcd.thermal.zero_momentum.i_m_m_l_i_same_mass q om m beta) ∧
    P.thermal.zero_momentum.i_m_0_l_i (.val q) (.val om) (.val m) (.val beta) = .val (Qcd.thermal.zero_momentum.i_m_0_l_i q om m beta) ∧
    P.thermal.zero_momentum.i_0_0_l_i (.val q) (.val om) (.val beta) = .val (Qcd.thermal.zero_momentum.i_0_0_l_i q om beta) ∧
    P.thermal.zero_momentum.i_m_m_t_i (.val q) (.val om) (.val m1) (.val m2) (.val beta) = .val (Qcd.thermal.zero_momentum.i_m_m_t_i q om m1 m2 beta) ∧
    P.thermal.zero_momentum.i_m_m_t_i_same_mass (.val q) (.val om) (.val m) (.val beta) = .val (Qcd.thermal.zero_momentum.i_m_m_t_i_same_mass q om m beta) ∧
    P.thermal.zero_momentum.i_m_0_t_i (.val q) (.val om) (.val m) (.val beta) = .val (Qcd.thermal.zero_momentum.i_m_0_t_i q om m beta) ∧
    P.thermal.zero_momentum.i_0_0_t_i (.val q) (.val om) (.val beta) = .val (Qcd.thermal.zero_momentum.i_0_0_t_i q om beta) ∧
    P.thermal.zero_momentum.d_i_m_m_i (.val q) (.val om) (.val m1) (.val m2) (.val beta) = .val (Qcd.thermal.zero_momentum.d_i_m_m_i q om m1 m2 beta) ∧
    P.thermal.zero_momentum.d_i_m_m_i_same_mass (.val q) (.val om) (.val m) (.val beta) = .val (Qcd.thermal.zero_momentum.d_i_m_m_i_same_mass q om m beta) ∧
    P.thermal.zero_momentum.d_i_m_0_i (.val q) (.val om) (.val m) (.val beta) = .val (Qcd.thermal.zero_momentum.d_i_m_0_i q om m beta) ∧
    P.thermal.zero_momentum.d_i_0_0_i (.val q) (.val om) (.val beta) = .val (Qcd.thermal.zero_momentum.d_i_0_0_i q om beta) ∧
    P.thermal.zero_momentum.d_i_m_m_l_i (.val q) (.val om) (.val m1) (.val m2) (.val beta) = .val (Qcd.thermal.zero_momentum.d_i_m_m_l_i q om m1 m2 beta) ∧
    P.thermal.zero_momentum.d_i_m_m_l_i_same_mass (.val q) (.val om) (.val m) (.val beta) = .val (Qcd.thermal.zero_momentum.d_i_m_m_l_i_same_mass q om m beta) ∧
    P.thermal.zero_momentum.d_i_m_0_l_i (.val q) (.val om) (.val m) (.val beta) = .val (Qcd.thermal.zero_momentum.d_i_m_0_l_i q om m beta) ∧
    P.thermal.zero_momentum.d_i_0_0_l_i (.val q) (.val om) (.val beta) = .val (Qcd.thermal.zero_momentum.d_i_0_0_l_i q om beta) ∧
    P.thermal.zero_momentum.d_i_m_m_t_i (.val q) (.val om) (.val m1) (.val m2) (.val beta) = .val (Qcd.thermal.zero_momentum.d_i_m_m_t_i q om m1 m2 beta) ∧
    P.thermal.zero_momentum.d_i_m_m_t_i_same_mass (.val q) (.val om) (.val m) (.val beta) = .val (Qcd.thermal.zero_momentum.d_i_m_m_t_i_same_mass q om m beta) ∧
    P.thermal.zero_momentum.d_i_m_0_t_i (.val q) (.val om) (.val m) (.val beta) = .val (Qcd.thermal.zero_momentum.d_i_m_0_t_i q om m beta) ∧
    P.thermal.zero_momentum.d_i_0_0_t_i (.val q) (.val om) (.val beta) = .val (Qcd.thermal.zero_momentum.d_i_0_0_t_i q om beta) :=
  ⟨thermal_zero_momentum_i_m_m_i_val q om m1 m2 beta hq ho hb,
    thermal_zero_momentum_i_m_m_i_same_mass_val q om m beta hq ho hb,
    thermal_zero_momentum_i_m_0_i_val q om m beta hq ho hb,
    thermal_zero_momentum_i_0_0_i_val q om beta hq ho hb,
    thermal_zero_momentum_i_m_m_l_i_val q om m1 m2 beta hq ho hb,
    thermal_zero_momentum_i_m_m_l_i_same_mass_val q om m beta hq ho hb,
    thermal_zero_momentum_i_m_0_l_i_val q om m beta hq ho hb,
    thermal_zero_momentum_i_0_0_l_i_val q om beta hq ho hb,
    thermal_zero_momentum_i_m_m_t_i_val q om m1 m2 beta hq ho hb,
    thermal_zero_momentum_i_m_m_t_i_same_mass_val q om m beta hq ho hb,
    thermal_zero_momentum_i_m_0_t_i_val q om m beta hq ho hb,
    thermal_zero_momentum_i_0_0_t_i_val q om beta hq ho hb,
    thermal_zero_momentum_d_i_m_m_i_val q om m1 m2 beta hq ho hb,
    thermal_zero_momentum_d_i_m_m_i_same_mass_val q om m beta hq ho hb,
    thermal_zero_momentum_d_i_m_0_i_val q om m beta hq ho hb,
    thermal_zero_momentum_d_i_0_0_i_val q om beta hq ho hb,
    thermal_zero_momentum_d_i_m_m_l_i_val q om m1 m2 beta hq ho hb,
    thermal_zero_momentum_d_i_m_m_l_i_same_mass_val q om m beta hq ho hb,
    thermal_zero_momentum_d_i_m_0_l_i_val q om m beta hq ho hb,
    thermal_zero_momentum_d_i_0_0_l_i_val q om beta hq ho hb,
    thermal_zero_momentum_d_i_m_m_t_i_val q om m1 m2 beta hq ho hb,
    thermal_zero_momentum_d_i_m_m_t_i_same_mass_val q om m beta hq ho hb,
    thermal_zero_momentum_d_i_m_0_t_i_val q om m beta hq ho hb,
    thermal_zero_momentum_d_i_0_0_t_i_val q om beta hq ho hb⟩

example := C108_zero_momentum_diagrams 1 (-2 : ℝ) (by simp) 1 0 2 5 (by norm_num) (by norm_num)
example := C108_zero_momentum_diagrams 1 (1 + 2 * Complex.I : ℂ) (by simp) 1 2 2 5 (by norm_num) (by norm_num)

/-- **C108** The integrands of the ghost self-energy and of the glue and quark parts of the gluon polarization, at non-zero and at zero
temperature. -/
theorem C108_parts {T : Type} [Num T] [NumDom T] (k : Consts ℝ) (hk : k.nc ≠ 0) (q : ℝ) (om : T) (ho : (toC om).re ≠ 0) (p m mq beta mu : ℝ) (hq : 0 < q) (hp : p ≠ 0) (hm : m ≠ 0) (hb : 0 < beta) :
    P.ghost.thermal.self_energy_thermal_part_landau_i (.val q) (.val om) (.val p) (.val m) (.val beta) = .val (Qcd.ghost.thermal.self_energy_thermal_part_landau_i q om p m beta) ∧
    P.gluon.thermal.polarization_glue_l_thermal_part_landau_i (.val q) (.val om) (.val p) (.val m) (.val beta) = .val (Qcd.gluon.thermal.polarization_glue_l_thermal_part_landau_i q om p m beta) ∧
    P.gluon.thermal.polarization_glue_t_thermal_part_landau_i (.val q) (.val om) (.val p) (.val m) (.val beta) = .val (Qcd.gluon.thermal.polarization_glue_t_thermal_part_landau_i q om p m beta) ∧
    P.gluon.thermal.polarization_quark_l_thermal_part_landau_i k (.val q) (.val om) (.val p) (.val mq) (.val beta) (.val mu) = .val (Qcd.gluon.thermal.polarization_quark_l_thermal_part_landau_i k q om p mq beta mu) ∧
    P.gluon.thermal.polarization_quark_t_thermal_part_landau_i k (.val q) (.val om) (.val p) (.val mq) (.val beta) (.val mu) = .val (Qcd.gluon.thermal.polarization_quark_t_thermal_part_landau_i k q om p mq beta mu) ∧
    P.gluon.thermal.polarization_quark_l_thermal_part_zero_temp_landau_i k (.val q) (.val om) (.val p) (.val mq) (.val mu) = .val (Qcd.gluon.thermal.polarization_quark_l_thermal_part_zero_temp_landau_i k q om p mq mu) ∧
    P.gluon.thermal.polarization_quark_t_thermal_part_zero_temp_landau_i k (.val q) (.val om) (.val p) (.val mq) (.val mu) = .val (Qcd.gluon.thermal.polarization_quark_t_thermal_part_zero_temp_landau_i k q om p mq mu) :=
  ⟨ghost_thermal_self_energy_thermal_part_landau_i_val q om p m beta hq ho hp hb hm,
    gluon_thermal_polarization_glue_l_thermal_part_landau_i_val q om p m beta hq ho hp hb hm,
    gluon_thermal_polarization_glue_t_thermal_part_landau_i_val q om p m beta hq ho hp hb hm,
    gluon_thermal_polarization_quark_l_thermal_part_landau_i_val k q om p mq beta mu hq ho hp hb hk,
    gluon_thermal_polarization_quark_t_thermal_part_landau_i_val k q om p mq beta mu hq ho hp hb hk,
    gluon_thermal_polarization_quark_l_thermal_part_zero_temp_landau_i_val k q om p mq mu hq ho hp hk,
    gluon_thermal_polarization_quark_t_thermal_part_zero_temp_landau_i_val k q om p mq mu hq ho hp hk⟩

example (k : Consts ℝ) (hk : k.nc = 3) := C108_parts k (by omega) 1 (2 : ℝ) (by simp) 3 (1 / 2) 0 5 1 (by norm_num) (by norm_num) (by norm_num) (by norm_num)

/-- **C108** The same for the functions for zero momentum. -/
theorem C108_zero_momentum_parts {T : Type} [Num T] [NumDom T] (k : Consts ℝ) (hk : k.nc ≠ 0) (q : ℝ) (om : T) (ho : (toC om).re ≠ 0) (m mq beta mu : ℝ) (hq : 0 < q) (hm : m ≠ 0) (hb : 0 < beta) :
    P.ghost.thermal.zero_momentum.self_energy_thermal_part_landau_i (.val q) (.val om) (.val m) (.val beta) = .val (Qcd.ghost.thermal.zero_momentum.self_energy_thermal_part_landau_i q om m beta) ∧
    P.gluon.thermal.zero_momentum.polarization_glue_l_thermal_part_landau_i (.val q) (.val om) (.val m) (.val beta) = .val (Qcd.gluon.thermal.zero_momentum.polarization_glue_l_thermal_part_landau_i q om m beta) ∧
    P.gluon.thermal.zero_momentum.polarization_glue_t_thermal_part_landau_i (.val q) (.val om) (.val m) (.val beta) = .val (Qcd.gluon.thermal.zero_momentum.polarization_glue_t_thermal_part_landau_i q om m beta) ∧
    P.gluon.thermal.zero_momentum.polarization_quark_l_thermal_part_landau_i k (.val q) (.val om) (.val mq) (.val beta) (.val mu) = .val (Qcd.gluon.thermal.zero_momentum.polarization_quark_l_thermal_part_landau_i k q om mq beta mu) ∧
    P.gluon.thermal.zero_momentum.polarization_quark_t_thermal_part_landau_i k (.val q) (.val om) (.val mq) (.val beta) (.val mu) = .val (Qcd.gluon.thermal.zero_momentum.polarization_quark_t_thermal_part_landau_i k q om mq beta mu) ∧
    P.gluon.thermal.zero_momentum.polarization_quark_l_thermal_part_zero_temp_landau_i k (.val q) (.val om) (.val mq) (.val mu) = .val (Qcd.gluon.thermal.zero_momentum.polarization_quark_l_thermal_part_zero_temp_landau_i k q om mq mu) ∧
    P.gluon.thermal.zero_momentum.polarization_quark_t_thermal_part_zero_temp_landau_i k (.val q) (.val om) (.val mq) (.val mu) = .val (Qcd.gluon.thermal.zero_momentum.polarization_quark_t_thermal_part_zero_temp_landau_i k q om mq mu) :=
  ⟨ghost_thermal_zero_momentum_self_energy_thermal_part_landau_i_val q om m beta hq ho hb hm,
    gluon_thermal_zero_momentum_polarization_glue_l_thermal_part_landau_i_val q om m beta hq ho hb hm,
    gluon_thermal_zero_momentum_polarization_glue_t_thermal_part_landau_i_val q om m beta hq ho hb hm,
    gluon_thermal_zero_momentum_polarization_quark_l_thermal_part_landau_i_val k q om mq beta mu hq ho hb hk,
    gluon_thermal_zero_momentum_polarization_quark_t_thermal_part_landau_i_val k q om mq beta mu hq ho hb hk,
    gluon_thermal_zero_momentum_polarization_quark_l_thermal_part_zero_temp_landau_i_val k q om mq mu hq ho hk,
    gluon_thermal_zero_momentum_polarization_quark_t_thermal_part_zero_temp_landau_i_val k q om mq mu hq ho hk⟩

example (k : Consts ℝ) (hk : k.nc = 3) := C108_zero_momentum_parts k (by omega) 1 (2 : ℝ) (by simp) (1 / 2) 0 5 1 (by norm_num) (by norm_num) (by norm_num)

/-- **C108** The functions for zero Matsubara frequency with equal masses are defined at every loop momentum but `q = p / 2`. -/
theorem C108_zero_matsubara_same_mass (q p m beta : ℝ) (hq : 0 < q) (hp : 0 < p) (hb : 0 < beta) (hn : q ≠ p / 2) :
    P.thermal.zero_matsubara.i_m_m_i_same_mass (.val q) (.val p) (.val m) (.val beta) = .val (Qcd.thermal.zero_matsubara.i_m_m_i_same_mass q p m beta) ∧
    P.thermal.zero_matsubara.i_0_0_i (.val q) (.val p) (.val beta) = .val (Qcd.thermal.zero_matsubara.i_0_0_i q p beta) ∧
    P.thermal.zero_matsubara.i_m_m_l_i_same_mass (.val q) (.val p) (.val m) (.val beta) = .val (Qcd.thermal.zero_matsubara.i_m_m_l_i_same_mass q p m beta) ∧
    P.thermal.zero_matsubara.i_0_0_l_i (.val q) (.val p) (.val beta) = .val (Qcd.thermal.zero_matsubara.i_0_0_l_i q p beta) ∧
    P.thermal.zero_matsubara.i_m_m_t_i_same_mass (.val q) (.val p) (.val m) (.val beta) = .val (Qcd.thermal.zero_matsubara.i_m_m_t_i_same_mass q p m beta) ∧
    P.thermal.zero_matsubara.i_0_0_t_i (.val q) (.val p) (.val beta) = .val (Qcd.thermal.zero_matsubara.i_0_0_t_i q p beta) ∧
    P.thermal.zero_matsubara.d_i_m_m_i_same_mass (.val q) (.val p) (.val m) (.val beta) = .val (Qcd.thermal.zero_matsubara.d_i_m_m_i_same_mass q p m beta) ∧
    P.thermal.zero_matsubara.d_i_0_0_i (.val q) (.val p) (.val beta) = .val (Qcd.thermal.zero_matsubara.d_i_0_0_i q p beta) ∧
    P.thermal.zero_matsubara.d_i_m_m_l_i_same_mass (.val q) (.val p) (.val m) (.val beta) = .val (Qcd.thermal.zero_matsubara.d_i_m_m_l_i_same_mass q p m beta) ∧
    P.thermal.zero_matsubara.d_i_0_0_l_i (.val q) (.val p) (.val beta) = .val (Qcd.thermal.zero_matsubara.d_i_0_0_l_i q p beta) ∧
    P.thermal.zero_matsubara.d_i_m_m_t_i_same_mass (.val q) (.val p) (.val m) (.val beta) = .val (Qcd.thermal.zero_matsubara.d_i_m_m_t_i_same_mass q p m beta) ∧
    P.thermal.zero_matsubara.d_i_0_0_t_i (.val q) (.val p) (.val beta) = .val (Qcd.thermal.zero_matsubara.d_i_0_0_t_i q p beta) :=
  have h2 : 2 * -q + p ≠ 0 := fun h => hn (by linarith)
  ⟨thermal_zero_matsubara_i_m_m_i_same_mass_val q p m beta hq hp hb h2,
    thermal_zero_matsubara_i_0_0_i_val q p beta hq hp hb h2,
    thermal_zero_matsubara_i_m_m_l_i_same_mass_val q p m beta hq hp hb h2,
    thermal_zero_matsubara_i_0_0_l_i_val q p beta hq hp hb h2,
    thermal_zero_matsubara_i_m_m_t_i_same_mass_val q p m beta hq hp hb h2,
    thermal_zero_matsubara_i_0_0_t_i_val q p beta hq hp hb h2,
    thermal_zero_matsubara_d_i_m_m_i_same_mass_val q p m beta hq hp hb h2,
    thermal_zero_matsubara_d_i_0_0_i_val q p beta hq hp hb h2,
    thermal_zero_matsubara_d_i_m_m_l_i_same_mass_val q p m beta hq hp hb h2,
    thermal_zero_matsubara_d_i_0_0_l_i_val q p beta hq hp hb h2,
    thermal_zero_matsubara_d_i_m_m_t_i_same_mass_val q p m beta hq hp hb h2,
    thermal_zero_matsubara_d_i_0_0_t_i_val q p beta hq hp hb h2⟩

example := C108_zero_matsubara_same_mass 1 1 2 5 (by norm_num) (by norm_num) (by norm_num) (by norm_num)

/-- **C108** The functions for zero Matsubara frequency with two masses are defined at every loop momentum `q` but those at which
`2 q p = ±(p² ± (m₂² - m₁²))`. -/
theorem C108_zero_matsubara_masses (q p m1 m2 beta : ℝ) (hq : 0 < q) (hp : 0 < p) (hb : 0 < beta) (hR : (p * p + (m2 * m2 - m1 * m1)) ^ 2 ≠ (2 * q * p) ^ 2) (hR2 : (p * p - (m2 * m2 - m1 * m1)) ^ 2 ≠ (2 * q * p) ^ 2) :
    P.thermal.zero_matsubara.i_m_m_i (.val q) (.val p) (.val m1) (.val m2) (.val beta) = .val (Qcd.thermal.zero_matsubara.i_m_m_i q p m1 m2 beta) ∧
    P.thermal.zero_matsubara.i_m_m_l_i (.val q) (.val p) (.val m1) (.val m2) (.val beta) = .val (Qcd.thermal.zero_matsubara.i_m_m_l_i q p m1 m2 beta) ∧
    P.thermal.zero_matsubara.i_m_m_t_i (.val q) (.val p) (.val m1) (.val m2) (.val beta) = .val (Qcd.thermal.zero_matsubara.i_m_m_t_i q p m1 m2 beta) ∧
    P.thermal.zero_matsubara.d_i_m_m_i (.val q) (.val p) (.val m1) (.val m2) (.val beta) = .val (Qcd.thermal.zero_matsubara.d_i_m_m_i q p m1 m2 beta) ∧
    P.thermal.zero_matsubara.d_i_m_m_l_i (.val q) (.val p) (.val m1) (.val m2) (.val beta) = .val (Qcd.thermal.zero_matsubara.d_i_m_m_l_i q p m1 m2 beta) ∧
    P.thermal.zero_matsubara.d_i_m_m_t_i (.val q) (.val p) (.val m1) (.val m2) (.val beta) = .val (Qcd.thermal.zero_matsubara.d_i_m_m_t_i q p m1 m2 beta) :=
  ⟨thermal_zero_matsubara_i_m_m_i_val q p m1 m2 beta hq hp hb hR hR2,
    thermal_zero_matsubara_i_m_m_l_i_val q p m1 m2 beta hq hp hb hR hR2,
    thermal_zero_matsubara_i_m_m_t_i_val q p m1 m2 beta hq hp hb hR hR2,
    thermal_zero_matsubara_d_i_m_m_i_val q p m1 m2 beta hq hp hb hR hR2,
    thermal_zero_matsubara_d_i_m_m_l_i_val q p m1 m2 beta hq hp hb hR hR2,
    thermal_zero_matsubara_d_i_m_m_t_i_val q p m1 m2 beta hq hp hb hR hR2⟩

example := C108_zero_matsubara_masses 1 1 2 3 5 (by norm_num) (by norm_num) (by norm_num) (by norm_num) (by norm_num)

/-- **C108** The functions for zero Matsubara frequency with one mass and one zero mass. -/
theorem C108_zero_matsubara_zero_mass (q p m beta : ℝ) (hq : 0 < q) (hp : 0 < p) (hb : 0 < beta) (hR : (p * p - m * m) ^ 2 ≠ (2 * q * p) ^ 2) (hR2 : (p * p + m * m) ^ 2 ≠ (2 * q * p) ^ 2) :
    P.thermal.zero_matsubara.i_m_0_i (.val q) (.val p) (.val m) (.val beta) = .val (Qcd.thermal.zero_matsubara.i_m_0_i q p m beta) ∧
    P.thermal.zero_matsubara.i_m_0_l_i (.val q) (.val p) (.val m) (.val beta) = .val (Qcd.thermal.zero_matsubara.i_m_0_l_i q p m beta) ∧
    P.thermal.zero_matsubara.i_m_0_t_i (.val q) (.val p) (.val m) (.val beta) = .val (Qcd.thermal.zero_matsubara.i_m_0_t_i q p m beta) ∧
    P.thermal.zero_matsubara.d_i_m_0_i (.val q) (.val p) (.val m) (.val beta) = .val (Qcd.thermal.zero_matsubara.d_i_m_0_i q p m beta) ∧
    P.thermal.zero_matsubara.d_i_m_0_l_i (.val q) (.val p) (.val m) (.val beta) = .val (Qcd.thermal.zero_matsubara.d_i_m_0_l_i q p m beta) ∧
    P.thermal.zero_matsubara.d_i_m_0_t_i (.val q) (.val p) (.val m) (.val beta) = .val (Qcd.thermal.zero_matsubara.d_i_m_0_t_i q p m beta) :=
  ⟨thermal_zero_matsubara_i_m_0_i_val q p m beta hq hp hb hR hR2,
    thermal_zero_matsubara_i_m_0_l_i_val q p m beta hq hp hb hR hR2,
    thermal_zero_matsubara_i_m_0_t_i_val q p m beta hq hp hb hR hR2,
    thermal_zero_matsubara_d_i_m_0_i_val q p m beta hq hp hb hR hR2,
    thermal_zero_matsubara_d_i_m_0_l_i_val q p m beta hq hp hb hR hR2,
    thermal_zero_matsubara_d_i_m_0_t_i_val q p m beta hq hp hb hR hR2⟩

example := C108_zero_matsubara_zero_mass 1 1 2 5 (by norm_num) (by norm_num) (by norm_num) (by norm_num) (by norm_num)

/-- **C108** The integrands of the ghost self-energy and of the parts of the gluon polarization for zero Matsubara frequency. -/
theorem C108_zero_matsubara_parts (k : Consts ℝ) (hk : k.nc ≠ 0) (q p m mq beta mu : ℝ) (hq : 0 < q) (hp : 0 < p) (hm : m ≠ 0) (hb : 0 < beta) (hn : q ≠ p / 2)
    (hR : (p * p - m * m) ^ 2 ≠ (2 * q * p) ^ 2) (hR2 : (p * p + m * m) ^ 2 ≠ (2 * q * p) ^ 2) :
    P.ghost.thermal.zero_matsubara.self_energy_thermal_part_landau_i (.val q) (.val p) (.val m) (.val beta) = .val (Qcd.ghost.thermal.zero_matsubara.self_energy_thermal_part_landau_i q p m beta) ∧
    P.gluon.thermal.zero_matsubara.polarization_glue_l_thermal_part_landau_i (.val q) (.val p) (.val m) (.val beta) = .val (Qcd.gluon.thermal.zero_matsubara.polarization_glue_l_thermal_part_landau_i q p m beta) ∧
    P.gluon.thermal.zero_matsubara.polarization_glue_t_thermal_part_landau_i (.val q) (.val p) (.val m) (.val beta) = .val (Qcd.gluon.thermal.zero_matsubara.polarization_glue_t_thermal_part_landau_i q p m beta) ∧
    P.gluon.thermal.zero_matsubara.polarization_quark_l_thermal_part_landau_i k (.val q) (.val p) (.val mq) (.val beta) (.val mu) = .val (Qcd.gluon.thermal.zero_matsubara.polarization_quark_l_thermal_part_landau_i k q p mq beta mu) ∧
    P.gluon.thermal.zero_matsubara.polarization_quark_t_thermal_part_landau_i k (.val q) (.val p) (.val mq) (.val beta) (.val mu) = .val (Qcd.gluon.thermal.zero_matsubara.polarization_quark_t_thermal_part_landau_i k q p mq beta mu) ∧
    P.gluon.thermal.zero_matsubara.polarization_quark_l_thermal_part_zero_temp_landau_i k (.val q) (.val p) (.val mq) (.val mu) = .val (Qcd.gluon.thermal.zero_matsubara.polarization_quark_l_thermal_part_zero_temp_landau_i k q p mq mu) ∧
    P.gluon.thermal.zero_matsubara.polarization_quark_t_thermal_part_zero_temp_landau_i k (.val q) (.val p) (.val mq) (.val mu) = .val (Qcd.gluon.thermal.zero_matsubara.polarization_quark_t_thermal_part_zero_temp_landau_i k q p mq mu) :=
  have h2 : 2 * -q + p ≠ 0 := fun h => hn (by linarith)
  ⟨ghost_thermal_zero_matsubara_self_energy_thermal_part_landau_i_val q p m beta hq hp hb hm h2 hR hR2,
    gluon_thermal_zero_matsubara_polarization_glue_l_thermal_part_landau_i_val q p m beta hq hp hb hm h2 hR hR2,
    gluon_thermal_zero_matsubara_polarization_glue_t_thermal_part_landau_i_val q p m beta hq hp hb hm h2 hR hR2,
    gluon_thermal_zero_matsubara_polarization_quark_l_thermal_part_landau_i_val k q p mq beta mu hq hp hb hk h2,
    gluon_thermal_zero_matsubara_polarization_quark_t_thermal_part_landau_i_val k q p mq beta mu hq hp hb hk h2,
    gluon_thermal_zero_matsubara_polarization_quark_l_thermal_part_zero_temp_landau_i_val k q p mq mu hq hp hk h2,
    gluon_thermal_zero_matsubara_polarization_quark_t_thermal_part_zero_temp_landau_i_val k q p mq mu hq hp hk h2⟩

example (k : Consts ℝ) (hk : k.nc = 3) := C108_zero_matsubara_parts k (by omega) 1 1 2 0 5 1 (by norm_num) (by norm_num) (by norm_num) (by norm_num) (by norm_num) (by norm_num) (by norm_num)

/-- **C108** At `p = 0` the functions for general momentum divide by zero: the functions for zero momentum are needed. -/
theorem C108_zero_momentum_undefined {T : Type} [Num T] [NumDom T] (k : Consts ℝ) (q : ℝ) (om : T) (m mq beta mu : ℝ) :
    P.ghost.thermal.self_energy_thermal_part_landau_i (.val q) (.val om) (.val (0 : ℝ)) (.val m) (.val beta) = .undef ∧
    P.gluon.thermal.polarization_glue_l_thermal_part_landau_i (.val q) (.val om) (.val (0 : ℝ)) (.val m) (.val beta) = .undef ∧
    P.gluon.thermal.polarization_glue_t_thermal_part_landau_i (.val q) (.val om) (.val (0 : ℝ)) (.val m) (.val beta) = .undef ∧
    P.gluon.thermal.polarization_quark_l_thermal_part_landau_i k (.val q) (.val om) (.val (0 : ℝ)) (.val mq) (.val beta) (.val mu) = .undef ∧
    P.gluon.thermal.polarization_quark_t_thermal_part_landau_i k (.val q) (.val om) (.val (0 : ℝ)) (.val mq) (.val beta) (.val mu) = .undef ∧
    P.gluon.thermal.polarization_quark_l_thermal_part_zero_temp_landau_i k (.val q) (.val om) (.val (0 : ℝ)) (.val mq) (.val mu) = .undef ∧
    P.gluon.thermal.polarization_quark_t_thermal_part_zero_temp_landau_i k (.val q) (.val om) (.val (0 : ℝ)) (.val mq) (.val mu) = .undef := by
  refine ⟨?_, ?_, ?_, ?_, ?_, ?_, ?_⟩ <;>
  simp only [P.ghost.thermal.self_energy_thermal_part_landau_i, P.gluon.thermal.polarization_glue_l_thermal_part_landau_i, P.gluon.thermal.polarization_glue_t_thermal_part_landau_i, P.gluon.thermal.polarization_quark_l_thermal_part_landau_i, P.gluon.thermal.polarization_quark_t_thermal_part_landau_i, P.gluon.thermal.polarization_quark_l_thermal_part_zero_temp_landau_i, P.gluon.thermal.polarization_quark_t_thermal_part_zero_temp_landau_i, P.thermal.i_0_0_i, P.thermal.i_0_0_l_i, P.thermal.i_0_0_t_i, P.thermal.i_m_m_i_same_mass, P.thermal.i_m_m_l_i_same_mass, undef_add, add_undef, undef_sub, sub_undef, undef_mul, mul_undef, neg_undef, inv_undef, div_undef, undef_div, inv_zero_val, div_zero_val, ofR_undef, toC_undef, ln_undef, num_val, ofR_val, toC_val, mul_val, neg_val, zero_mul, mul_zero, toC_zero, ofR_zero, neg_zero]

/-- **C108** At `om = 0` the longitudinal glue part for general frequency divides by zero: the functions for zero Matsubara frequency are needed. -/
theorem C108_zero_matsubara_undefined {T : Type} [Num T] [NumDom T] (q p m beta : ℝ) :
    P.gluon.thermal.polarization_glue_l_thermal_part_landau_i (.val q) (.val (0 : T)) (.val p) (.val m) (.val beta) = .undef := by
  simp only [P.gluon.thermal.polarization_glue_l_thermal_part_landau_i, P.thermal.i_0_0_l_i, P.thermal.tlog_l_zero_mass, undef_add, add_undef, undef_sub, sub_undef, undef_mul, mul_undef, neg_undef, inv_undef, div_undef, undef_div, inv_zero_val, div_zero_val, ofR_undef, toC_undef, ln_undef, num_val, ofR_val, toC_val, mul_val, neg_val, zero_mul, mul_zero, toC_zero, ofR_zero, neg_zero]

/-- The logarithm for zero Matsubara frequency and zero masses at its singularity. -/
theorem tlog_zero_mass_undef {q p : ℝ} (h : q = p / 2) : P.thermal.zero_matsubara.tlog_same_mass (.val q) (.val p) = .undef := by
  have e : 2 * -q + p = 0 := by rw [h]; ring
  simp only [P.thermal.zero_matsubara.tlog_same_mass, num_val, mul_val, neg_val, add_val, e, div_zero_val, mul_undef, ln_undef, undef_div]

/-- The logarithm for zero Matsubara frequency at its singularities. -/
theorem tlog_undef {q p d : ℝ} (h : (p * p + d) ^ 2 = (2 * q * p) ^ 2) : P.thermal.zero_matsubara.tlog (.val q) (.val p) (.val d) = .undef := by
  have h' : d + p * p - q * 2 * p = 0 ∨ d + p * p + q * 2 * p = 0 := by
    rcases sq_eq_sq_iff_eq_or_eq_neg.1 h with h | h
    · exact .inl (by linarith)
    · exact .inr (by linarith)
  simp only [P.thermal.zero_matsubara.tlog, P.thermal.zero_matsubara.r_0, num_val, mul_val, ofR_val, ofR_real, add_val, sub_val]
  by_cases h0 : d + p * p - q * 2 * p = 0
  · rw [h0]; simp only [div_zero_val, undef_mul, toC_undef, ln_undef, undef_div]
  · rw [div_val h0, h'.resolve_left h0]
    simp only [zero_div, mul_val, zero_mul, toC_val, toC_zero]
    have : ln (val (0 : ℂ)) = undef := if_neg (fun h => h rfl)
    rw [this]; rfl

/-- **C108** Exactly the loop momenta at which the ghost self-energy and the glue parts for zero Matsubara frequency are undefined. -/
theorem C108_zero_matsubara_poles (q p m beta : ℝ) (hq : 0 < q) (hp : 0 < p) (hm : m ≠ 0) (hb : 0 < beta) :
    (P.ghost.thermal.zero_matsubara.self_energy_thermal_part_landau_i (.val q) (.val p) (.val m) (.val beta) = .undef ↔ (q = p / 2 ∨ (p * p - m * m) ^ 2 = (2 * q * p) ^ 2 ∨ (p * p + m * m) ^ 2 = (2 * q * p) ^ 2)) ∧
    (P.gluon.thermal.zero_matsubara.polarization_glue_l_thermal_part_landau_i (.val q) (.val p) (.val m) (.val beta) = .undef ↔ (q = p / 2 ∨ (p * p - m * m) ^ 2 = (2 * q * p) ^ 2 ∨ (p * p + m * m) ^ 2 = (2 * q * p) ^ 2)) ∧
    (P.gluon.thermal.zero_matsubara.polarization_glue_t_thermal_part_landau_i (.val q) (.val p) (.val m) (.val beta) = .undef ↔ (q = p / 2 ∨ (p * p - m * m) ^ 2 = (2 * q * p) ^ 2 ∨ (p * p + m * m) ^ 2 = (2 * q * p) ^ 2)) := by
  refine ⟨?_, ?_, ?_⟩
  · constructor
    · intro h
      by_contra hn
      simp only [not_or] at hn
      have h2 : 2 * -q + p ≠ 0 := fun h => hn.1 (by linarith)
      have hR := hn.2.1
      have hR2 := hn.2.2
      rw [ghost_thermal_zero_matsubara_self_energy_thermal_part_landau_i_val q p m beta hq hp hb hm h2 hR hR2] at h
      cases h
    · rintro (h | h | h)
      · simp only [P.ghost.thermal.zero_matsubara.self_energy_thermal_part_landau_i, tlog_zero_mass_undef h, P.thermal.zero_matsubara.d_i_m_0_i, P.thermal.zero_matsubara.i_0_0_i, P.thermal.zero_matsubara.i_m_0_i, P.thermal.zero_matsubara.r_0, P.thermal.zero_matsubara.tlog_zero_mass, undef_add, add_undef, undef_sub, sub_undef, undef_mul, mul_undef, neg_undef, inv_undef, div_undef, undef_div, ofR_undef, toC_undef, ln_undef, num_val, ofR_val, toC_val, mul_val, neg_val]
      · have e : (p * p + -m * m) ^ 2 = (2 * q * p) ^ 2 := by rw [← h]; ring
        simp only [P.ghost.thermal.zero_matsubara.self_energy_thermal_part_landau_i, P.thermal.zero_matsubara.d_i_m_0_i, P.thermal.zero_matsubara.i_0_0_i, P.thermal.zero_matsubara.i_m_0_i, P.thermal.zero_matsubara.r_0, P.thermal.zero_matsubara.tlog_zero_mass, tlog_undef e, undef_add, add_undef, undef_sub, sub_undef, undef_mul, mul_undef, neg_undef, inv_undef, div_undef, undef_div, ofR_undef, toC_undef, ln_undef, num_val, ofR_val, toC_val, mul_val, neg_val]
      · have e : (p * p + -(-m * m)) ^ 2 = (2 * q * p) ^ 2 := by rw [← h]; ring
        simp only [P.ghost.thermal.zero_matsubara.self_energy_thermal_part_landau_i, P.thermal.zero_matsubara.d_i_m_0_i, P.thermal.zero_matsubara.i_0_0_i, P.thermal.zero_matsubara.i_m_0_i, P.thermal.zero_matsubara.r_0, P.thermal.zero_matsubara.tlog_zero_mass, tlog_undef e, undef_add, add_undef, undef_sub, sub_undef, undef_mul, mul_undef, neg_undef, inv_undef, div_undef, undef_div, ofR_undef, toC_undef, ln_undef, num_val, ofR_val, toC_val, mul_val, neg_val]
  · constructor
    · intro h
      by_contra hn
      simp only [not_or] at hn
      have h2 : 2 * -q + p ≠ 0 := fun h => hn.1 (by linarith)
      have hR := hn.2.1
      have hR2 := hn.2.2
      rw [gluon_thermal_zero_matsubara_polarization_glue_l_thermal_part_landau_i_val q p m beta hq hp hb hm h2 hR hR2] at h
      cases h
    · rintro (h | h | h)
      · simp only [P.gluon.thermal.zero_matsubara.polarization_glue_l_thermal_part_landau_i, tlog_zero_mass_undef h, P.thermal.zero_matsubara.d_i_m_0_i, P.thermal.zero_matsubara.d_i_m_0_l_i, P.thermal.zero_matsubara.d_i_m_m_i_same_mass, P.thermal.zero_matsubara.d_i_m_m_l_i_same_mass, P.thermal.zero_matsubara.i_0_0_l_i, P.thermal.zero_matsubara.i_m_0_i, P.thermal.zero_matsubara.i_m_0_l_i, P.thermal.zero_matsubara.i_m_m_i_same_mass, P.thermal.zero_matsubara.i_m_m_l_i_same_mass, P.thermal.zero_matsubara.r_0, undef_add, add_undef, undef_sub, sub_undef, undef_mul, mul_undef, neg_undef, inv_undef, div_undef, undef_div, ofR_undef, toC_undef, ln_undef, num_val, ofR_val, toC_val, mul_val, neg_val]
      · have e : (p * p + -m * m) ^ 2 = (2 * q * p) ^ 2 := by rw [← h]; ring
        simp only [P.gluon.thermal.zero_matsubara.polarization_glue_l_thermal_part_landau_i, P.thermal.zero_matsubara.d_i_m_0_i, P.thermal.zero_matsubara.d_i_m_0_l_i, P.thermal.zero_matsubara.d_i_m_m_i_same_mass, P.thermal.zero_matsubara.d_i_m_m_l_i_same_mass, P.thermal.zero_matsubara.i_0_0_l_i, P.thermal.zero_matsubara.i_m_0_i, P.thermal.zero_matsubara.i_m_0_l_i, P.thermal.zero_matsubara.i_m_m_i_same_mass, P.thermal.zero_matsubara.i_m_m_l_i_same_mass, P.thermal.zero_matsubara.r_0, tlog_undef e, undef_add, add_undef, undef_sub, sub_undef, undef_mul, mul_undef, neg_undef, inv_undef, div_undef, undef_div, ofR_undef, toC_undef, ln_undef, num_val, ofR_val, toC_val, mul_val, neg_val]
      · have e : (p * p + -(-m * m)) ^ 2 = (2 * q * p) ^ 2 := by rw [← h]; ring
        simp only [P.gluon.thermal.zero_matsubara.polarization_glue_l_thermal_part_landau_i, P.thermal.zero_matsubara.d_i_m_0_i, P.thermal.zero_matsubara.d_i_m_0_l_i, P.thermal.zero_matsubara.d_i_m_m_i_same_mass, P.thermal.zero_matsubara.d_i_m_m_l_i_same_mass, P.thermal.zero_matsubara.i_0_0_l_i, P.thermal.zero_matsubara.i_m_0_i, P.thermal.zero_matsubara.i_m_0_l_i, P.thermal.zero_matsubara.i_m_m_i_same_mass, P.thermal.zero_matsubara.i_m_m_l_i_same_mass, P.thermal.zero_matsubara.r_0, tlog_undef e, undef_add, add_undef, undef_sub, sub_undef, undef_mul, mul_undef, neg_undef, inv_undef, div_undef, undef_div, ofR_undef, toC_undef, ln_undef, num_val, ofR_val, toC_val, mul_val, neg_val]
  · constructor
    · intro h
      by_contra hn
      simp only [not_or] at hn
      have h2 : 2 * -q + p ≠ 0 := fun h => hn.1 (by linarith)
      have hR := hn.2.1
      have hR2 := hn.2.2
      rw [gluon_thermal_zero_matsubara_polarization_glue_t_thermal_part_landau_i_val q p m beta hq hp hb hm h2 hR hR2] at h
      cases h
    · rintro (h | h | h)
      · simp only [P.gluon.thermal.zero_matsubara.polarization_glue_t_thermal_part_landau_i, tlog_zero_mass_undef h, P.thermal.zero_matsubara.d_i_m_0_i, P.thermal.zero_matsubara.d_i_m_0_t_i, P.thermal.zero_matsubara.d_i_m_m_i_same_mass, P.thermal.zero_matsubara.d_i_m_m_t_i_same_mass, P.thermal.zero_matsubara.i_0_0_t_i, P.thermal.zero_matsubara.i_m_0_i, P.thermal.zero_matsubara.i_m_0_t_i, P.thermal.zero_matsubara.i_m_m_i_same_mass, P.thermal.zero_matsubara.i_m_m_t_i_same_mass, P.thermal.zero_matsubara.r_0, P.thermal.zero_matsubara.tlog_t, P.thermal.zero_matsubara.tlog_t_same_mass, P.thermal.zero_matsubara.tlog_t_zero_mass, undef_add, add_undef, undef_sub, sub_undef, undef_mul, mul_undef, neg_undef, inv_undef, div_undef, undef_div, ofR_undef, toC_undef, ln_undef, num_val, ofR_val, toC_val, mul_val, neg_val]
      · have e : (p * p + -m * m) ^ 2 = (2 * q * p) ^ 2 := by rw [← h]; ring
        simp only [P.gluon.thermal.zero_matsubara.polarization_glue_t_thermal_part_landau_i, P.thermal.zero_matsubara.d_i_m_0_i, P.thermal.zero_matsubara.d_i_m_0_t_i, P.thermal.zero_matsubara.d_i_m_m_i_same_mass, P.thermal.zero_matsubara.d_i_m_m_t_i_same_mass, P.thermal.zero_matsubara.i_0_0_t_i, P.thermal.zero_matsubara.i_m_0_i, P.thermal.zero_matsubara.i_m_0_t_i, P.thermal.zero_matsubara.i_m_m_i_same_mass, P.thermal.zero_matsubara.i_m_m_t_i_same_mass, P.thermal.zero_matsubara.r_0, P.thermal.zero_matsubara.tlog_t, P.thermal.zero_matsubara.tlog_t_same_mass, P.thermal.zero_matsubara.tlog_t_zero_mass, tlog_undef e, undef_add, add_undef, undef_sub, sub_undef, undef_mul, mul_undef, neg_undef, inv_undef, div_undef, undef_div, ofR_undef, toC_undef, ln_undef, num_val, ofR_val, toC_val, mul_val, neg_val]
      · have e : (p * p + -(-m * m)) ^ 2 = (2 * q * p) ^ 2 := by rw [← h]; ring
        simp only [P.gluon.thermal.zero_matsubara.polarization_glue_t_thermal_part_landau_i, P.thermal.zero_matsubara.d_i_m_0_i, P.thermal.zero_matsubara.d_i_m_0_t_i, P.thermal.zero_matsubara.d_i_m_m_i_same_mass, P.thermal.zero_matsubara.d_i_m_m_t_i_same_mass, P.thermal.zero_matsubara.i_0_0_t_i, P.thermal.zero_matsubara.i_m_0_i, P.thermal.zero_matsubara.i_m_0_t_i, P.thermal.zero_matsubara.i_m_m_i_same_mass, P.thermal.zero_matsubara.i_m_m_t_i_same_mass, P.thermal.zero_matsubara.r_0, P.thermal.zero_matsubara.tlog_t, P.thermal.zero_matsubara.tlog_t_same_mass, P.thermal.zero_matsubara.tlog_t_zero_mass, tlog_undef e, undef_add, add_undef, undef_sub, sub_undef, undef_mul, mul_undef, neg_undef, inv_undef, div_undef, undef_div, ofR_undef, toC_undef, ln_undef, num_val, ofR_val, toC_val, mul_val, neg_val]

example := (C108_zero_matsubara_poles 1 2 1 5 (by norm_num) (by norm_num) (by norm_num) (by norm_num)).1.2 (.inl (by norm_num))
example := (C108_zero_matsubara_poles (5 / 4) 2 1 5 (by norm_num) (by norm_num) (by norm_num) (by norm_num)).1.2 (.inr (.inr (by norm_num)))

/-- **C108** Exactly the loop momentum at which the quark parts for zero Matsubara frequency are undefined. -/
theorem C108_zero_matsubara_quark_poles (k : Consts ℝ) (hk : k.nc ≠ 0) (q p mq beta mu : ℝ) (hq : 0 < q) (hp : 0 < p) (hb : 0 < beta) :
    (P.gluon.thermal.zero_matsubara.polarization_quark_l_thermal_part_landau_i k (.val q) (.val p) (.val mq) (.val beta) (.val mu) = .undef ↔ q = p / 2) ∧
    (P.gluon.thermal.zero_matsubara.polarization_quark_t_thermal_part_landau_i k (.val q) (.val p) (.val mq) (.val beta) (.val mu) = .undef ↔ q = p / 2) ∧
    (P.gluon.thermal.zero_matsubara.polarization_quark_l_thermal_part_zero_temp_landau_i k (.val q) (.val p) (.val mq) (.val mu) = .undef ↔ q = p / 2) ∧
    (P.gluon.thermal.zero_matsubara.polarization_quark_t_thermal_part_zero_temp_landau_i k (.val q) (.val p) (.val mq) (.val mu) = .undef ↔ q = p / 2) := by
  refine ⟨?_, ?_, ?_, ?_⟩
  · constructor
    · intro h
      by_contra hn
      have h2 : 2 * -q + p ≠ 0 := fun h => hn (by linarith)
      rw [gluon_thermal_zero_matsubara_polarization_quark_l_thermal_part_landau_i_val k q p mq beta mu hq hp hb hk h2] at h
      cases h
    · intro h
      simp only [P.gluon.thermal.zero_matsubara.polarization_quark_l_thermal_part_landau_i, tlog_zero_mass_undef h, undef_add, add_undef, undef_sub, sub_undef, undef_mul, mul_undef, neg_undef, inv_undef, div_undef, undef_div, inv_zero_val, div_zero_val, ofR_undef, toC_undef, ln_undef, num_val, ofR_val, toC_val, mul_val, neg_val, zero_mul, mul_zero, toC_zero, ofR_zero, neg_zero]
  · constructor
    · intro h
      by_contra hn
      have h2 : 2 * -q + p ≠ 0 := fun h => hn (by linarith)
      rw [gluon_thermal_zero_matsubara_polarization_quark_t_thermal_part_landau_i_val k q p mq beta mu hq hp hb hk h2] at h
      cases h
    · intro h
      simp only [P.gluon.thermal.zero_matsubara.polarization_quark_t_thermal_part_landau_i, tlog_zero_mass_undef h, undef_add, add_undef, undef_sub, sub_undef, undef_mul, mul_undef, neg_undef, inv_undef, div_undef, undef_div, inv_zero_val, div_zero_val, ofR_undef, toC_undef, ln_undef, num_val, ofR_val, toC_val, mul_val, neg_val, zero_mul, mul_zero, toC_zero, ofR_zero, neg_zero]
  · constructor
    · intro h
      by_contra hn
      have h2 : 2 * -q + p ≠ 0 := fun h => hn (by linarith)
      rw [gluon_thermal_zero_matsubara_polarization_quark_l_thermal_part_zero_temp_landau_i_val k q p mq mu hq hp hk h2] at h
      cases h
    · intro h
      simp only [P.gluon.thermal.zero_matsubara.polarization_quark_l_thermal_part_zero_temp_landau_i, tlog_zero_mass_undef h, undef_add, add_undef, undef_sub, sub_undef, undef_mul, mul_undef, neg_undef, inv_undef, div_undef, undef_div, inv_zero_val, div_zero_val, ofR_undef, toC_undef, ln_undef, num_val, ofR_val, toC_val, mul_val, neg_val, zero_mul, mul_zero, toC_zero, ofR_zero, neg_zero]
  · constructor
    · intro h
      by_contra hn
      have h2 : 2 * -q + p ≠ 0 := fun h => hn (by linarith)
      rw [gluon_thermal_zero_matsubara_polarization_quark_t_thermal_part_zero_temp_landau_i_val k q p mq mu hq hp hk h2] at h
      cases h
    · intro h
      simp only [P.gluon.thermal.zero_matsubara.polarization_quark_t_thermal_part_zero_temp_landau_i, tlog_zero_mass_undef h, undef_add, add_undef, undef_sub, sub_undef, undef_mul, mul_undef, neg_undef, inv_undef, div_undef, undef_div, inv_zero_val, div_zero_val, ofR_undef, toC_undef, ln_undef, num_val, ofR_val, toC_val, mul_val, neg_val, zero_mul, mul_zero, toC_zero, ofR_zero, neg_zero]

example (k : Consts ℝ) (hk : k.nc = 3) := (C108_zero_matsubara_quark_poles k (by omega) 1 2 0 5 1 (by norm_num) (by norm_num) (by norm_num)).1.2 (by norm_num)

end Qcd
