import Verif.Lemmas.ThermalUnits

/-! # C49: the thermal integrands do not depend on the unit of energy

Every dimensionful argument (loop momentum, frequency, momentum, masses, chemical potential) is
multiplied by the same `L > 0` and the inverse temperature divided by it; the result is multiplied
by the power of `L` fixed by its mass dimension. `ofR L` is the real number `L` in the (real or
complex) type of the argument it multiplies. The exponents: 1 for the (inverse propagator like)
self energy and polarization integrands, which are still to be integrated over `q` and divided by
a squared momentum; for the elementary integrands -1 for `i`, 1 for `j`, two more for the `_l` and
`_t` variants, two less for each derivative (`d_`, `d2_`) with respect to a squared mass. -/

namespace Qcd
open thermal consts

variable {T T1 T2 T3 T4 : Type} [Num T] [Num T1] [Num T2] [Num T3] [Num T4]

/-- All integrands of `thermal`. -/
theorem C49_thermal {L : ℝ} (hL : 0 < L) :
    (∀ (q : ℝ) (m : T) (beta : ℝ),
      thermal.j_m_i (L * q) (ofR L * m) (beta / L) = (ofR L : T) ^ (1 : ℤ) * thermal.j_m_i q m beta) ∧
    (∀ (q : ℝ) (beta : ℝ),
      thermal.j_0_i (L * q) (beta / L) = L ^ (1 : ℤ) * thermal.j_0_i q beta) ∧
    (∀ (q : ℝ) (m : T) (beta : ℝ),
      thermal.j_m_l_i (L * q) (ofR L * m) (beta / L) = (ofR L : T) ^ (3 : ℤ) * thermal.j_m_l_i q m beta) ∧
    (∀ (q : ℝ) (beta : ℝ),
      thermal.j_0_l_i (L * q) (beta / L) = L ^ (3 : ℤ) * thermal.j_0_l_i q beta) ∧
    (∀ (q : ℝ) (m : T) (beta : ℝ),
      thermal.j_m_t_i (L * q) (ofR L * m) (beta / L) = (ofR L : T) ^ (3 : ℤ) * thermal.j_m_t_i q m beta) ∧
    (∀ (q : ℝ) (beta : ℝ),
      thermal.j_0_t_i (L * q) (beta / L) = L ^ (3 : ℤ) * thermal.j_0_t_i q beta) ∧
    (∀ (q : ℝ) (om : T1) (p : ℝ) (m1 : T2) (m2 : T3) (beta : ℝ),
      thermal.i_m_m_i (L * q) (ofR L * om) (L * p) (ofR L * m1) (ofR L * m2) (beta / L) = (L : ℂ) ^ (-1 : ℤ) * thermal.i_m_m_i q om p m1 m2 beta) ∧
    (∀ (q : ℝ) (om : T1) (p : T2) (m : T3) (beta : ℝ),
      thermal.i_m_m_i_same_mass (L * q) (ofR L * om) (ofR L * p) (ofR L * m) (beta / L) = (L : ℂ) ^ (-1 : ℤ) * thermal.i_m_m_i_same_mass q om p m beta) ∧
    (∀ (q : ℝ) (om : T1) (p : T2) (m : T3) (beta : ℝ),
      thermal.i_m_0_i (L * q) (ofR L * om) (ofR L * p) (ofR L * m) (beta / L) = (L : ℂ) ^ (-1 : ℤ) * thermal.i_m_0_i q om p m beta) ∧
    (∀ (q : ℝ) (om : T) (p : ℝ) (beta : ℝ),
      thermal.i_0_0_i (L * q) (ofR L * om) (L * p) (beta / L) = (L : ℂ) ^ (-1 : ℤ) * thermal.i_0_0_i q om p beta) ∧
    (∀ (q : ℝ) (om : T1) (p : ℝ) (m1 : T2) (m2 : T3) (beta : ℝ),
      thermal.i_m_m_l_i (L * q) (ofR L * om) (L * p) (ofR L * m1) (ofR L * m2) (beta / L) = (L : ℂ) ^ (1 : ℤ) * thermal.i_m_m_l_i q om p m1 m2 beta) ∧
    (∀ (q : ℝ) (om : T1) (p : T2) (m : T3) (beta : ℝ),
      thermal.i_m_m_l_i_same_mass (L * q) (ofR L * om) (ofR L * p) (ofR L * m) (beta / L) = (L : ℂ) ^ (1 : ℤ) * thermal.i_m_m_l_i_same_mass q om p m beta) ∧
    (∀ (q : ℝ) (om : T1) (p : T2) (m : T3) (beta : ℝ),
      thermal.i_m_0_l_i (L * q) (ofR L * om) (ofR L * p) (ofR L * m) (beta / L) = (L : ℂ) ^ (1 : ℤ) * thermal.i_m_0_l_i q om p m beta) ∧
    (∀ (q : ℝ) (om : T1) (p : T2) (beta : ℝ),
      thermal.i_0_0_l_i (L * q) (ofR L * om) (ofR L * p) (beta / L) = (L : ℂ) ^ (1 : ℤ) * thermal.i_0_0_l_i q om p beta) ∧
    (∀ (q : ℝ) (om : T1) (p : ℝ) (m1 : T2) (m2 : T3) (beta : ℝ),
      thermal.i_m_m_t_i (L * q) (ofR L * om) (L * p) (ofR L * m1) (ofR L * m2) (beta / L) = (L : ℂ) ^ (1 : ℤ) * thermal.i_m_m_t_i q om p m1 m2 beta) ∧
    (∀ (q : ℝ) (om : T1) (p : ℝ) (m : T2) (beta : ℝ),
      thermal.i_m_m_t_i_same_mass (L * q) (ofR L * om) (L * p) (ofR L * m) (beta / L) = (L : ℂ) ^ (1 : ℤ) * thermal.i_m_m_t_i_same_mass q om p m beta) ∧
    (∀ (q : ℝ) (om : T1) (p : ℝ) (m : T2) (beta : ℝ),
      thermal.i_m_0_t_i (L * q) (ofR L * om) (L * p) (ofR L * m) (beta / L) = (L : ℂ) ^ (1 : ℤ) * thermal.i_m_0_t_i q om p m beta) ∧
    (∀ (q : ℝ) (om : T) (p : ℝ) (beta : ℝ),
      thermal.i_0_0_t_i (L * q) (ofR L * om) (L * p) (beta / L) = (L : ℂ) ^ (1 : ℤ) * thermal.i_0_0_t_i q om p beta) ∧
    (∀ (q : ℝ) (m : T) (beta : ℝ),
      thermal.d_j_m_i (L * q) (ofR L * m) (beta / L) = (ofR L : T) ^ (-1 : ℤ) * thermal.d_j_m_i q m beta) ∧
    (∀ (q : ℝ) (beta : ℝ),
      thermal.d_j_0_i (L * q) (beta / L) = L ^ (-1 : ℤ) * thermal.d_j_0_i q beta) ∧
    (∀ (q : ℝ) (m : T) (beta : ℝ),
      thermal.d2_j_m_i (L * q) (ofR L * m) (beta / L) = (ofR L : T) ^ (-3 : ℤ) * thermal.d2_j_m_i q m beta) ∧
    (∀ (q : ℝ) (beta : ℝ),
      thermal.d2_j_0_i (L * q) (beta / L) = L ^ (-3 : ℤ) * thermal.d2_j_0_i q beta) ∧
    (∀ (q : ℝ) (m : T) (beta : ℝ),
      thermal.d_j_m_l_i (L * q) (ofR L * m) (beta / L) = (ofR L : T) ^ (1 : ℤ) * thermal.d_j_m_l_i q m beta) ∧
    (∀ (q : ℝ) (beta : ℝ),
      thermal.d_j_0_l_i (L * q) (beta / L) = L ^ (1 : ℤ) * thermal.d_j_0_l_i q beta) ∧
    (∀ (q : ℝ) (m : T) (beta : ℝ),
      thermal.d2_j_m_l_i (L * q) (ofR L * m) (beta / L) = (ofR L : T) ^ (-1 : ℤ) * thermal.d2_j_m_l_i q m beta) ∧
    (∀ (q : ℝ) (beta : ℝ),
      thermal.d2_j_0_l_i (L * q) (beta / L) = L ^ (-1 : ℤ) * thermal.d2_j_0_l_i q beta) ∧
    (∀ (q : ℝ) (m : T) (beta : ℝ),
      thermal.d_j_m_t_i (L * q) (ofR L * m) (beta / L) = (ofR L : T) ^ (1 : ℤ) * thermal.d_j_m_t_i q m beta) ∧
    (∀ (q : ℝ) (beta : ℝ),
      thermal.d_j_0_t_i (L * q) (beta / L) = L ^ (1 : ℤ) * thermal.d_j_0_t_i q beta) ∧
    (∀ (q : ℝ) (m : T) (beta : ℝ),
      thermal.d2_j_m_t_i (L * q) (ofR L * m) (beta / L) = (ofR L : T) ^ (-1 : ℤ) * thermal.d2_j_m_t_i q m beta) ∧
    (∀ (q : ℝ) (beta : ℝ),
      thermal.d2_j_0_t_i (L * q) (beta / L) = L ^ (-1 : ℤ) * thermal.d2_j_0_t_i q beta) ∧
    (∀ (q : ℝ) (om : T1) (p : ℝ) (m1 : T2) (m2 : T3) (beta : ℝ),
      thermal.d_i_m_m_i (L * q) (ofR L * om) (L * p) (ofR L * m1) (ofR L * m2) (beta / L) = (L : ℂ) ^ (-3 : ℤ) * thermal.d_i_m_m_i q om p m1 m2 beta) ∧
    (∀ (q : ℝ) (om : T1) (p : T2) (m : T3) (beta : ℝ),
      thermal.d_i_m_m_i_same_mass (L * q) (ofR L * om) (ofR L * p) (ofR L * m) (beta / L) = (L : ℂ) ^ (-3 : ℤ) * thermal.d_i_m_m_i_same_mass q om p m beta) ∧
    (∀ (q : ℝ) (om : T1) (p : T2) (m : T3) (beta : ℝ),
      thermal.d_i_m_0_i (L * q) (ofR L * om) (ofR L * p) (ofR L * m) (beta / L) = (L : ℂ) ^ (-3 : ℤ) * thermal.d_i_m_0_i q om p m beta) ∧
    (∀ (q : ℝ) (om : T) (p : ℝ) (beta : ℝ),
      thermal.d_i_0_0_i (L * q) (ofR L * om) (L * p) (beta / L) = (L : ℂ) ^ (-3 : ℤ) * thermal.d_i_0_0_i q om p beta) ∧
    (∀ (q : ℝ) (om : T1) (p : ℝ) (m1 : T2) (m2 : T3) (beta : ℝ),
      thermal.d_i_m_m_l_i (L * q) (ofR L * om) (L * p) (ofR L * m1) (ofR L * m2) (beta / L) = (L : ℂ) ^ (-1 : ℤ) * thermal.d_i_m_m_l_i q om p m1 m2 beta) ∧
    (∀ (q : ℝ) (om : T1) (p : T2) (m : T3) (beta : ℝ),
      thermal.d_i_m_m_l_i_same_mass (L * q) (ofR L * om) (ofR L * p) (ofR L * m) (beta / L) = (L : ℂ) ^ (-1 : ℤ) * thermal.d_i_m_m_l_i_same_mass q om p m beta) ∧
    (∀ (q : ℝ) (om : T1) (p : T2) (m : T3) (beta : ℝ),
      thermal.d_i_m_0_l_i (L * q) (ofR L * om) (ofR L * p) (ofR L * m) (beta / L) = (L : ℂ) ^ (-1 : ℤ) * thermal.d_i_m_0_l_i q om p m beta) ∧
    (∀ (q : ℝ) (om : T) (p : ℝ) (beta : ℝ),
      thermal.d_i_0_0_l_i (L * q) (ofR L * om) (L * p) (beta / L) = (L : ℂ) ^ (-1 : ℤ) * thermal.d_i_0_0_l_i q om p beta) ∧
    (∀ (q : ℝ) (om : T1) (p : ℝ) (m1 : T2) (m2 : T3) (beta : ℝ),
      thermal.d_i_m_m_t_i (L * q) (ofR L * om) (L * p) (ofR L * m1) (ofR L * m2) (beta / L) = (L : ℂ) ^ (-1 : ℤ) * thermal.d_i_m_m_t_i q om p m1 m2 beta) ∧
    (∀ (q : ℝ) (om : T1) (p : ℝ) (m : T2) (beta : ℝ),
      thermal.d_i_m_m_t_i_same_mass (L * q) (ofR L * om) (L * p) (ofR L * m) (beta / L) = (L : ℂ) ^ (-1 : ℤ) * thermal.d_i_m_m_t_i_same_mass q om p m beta) ∧
    (∀ (q : ℝ) (om : T1) (p : ℝ) (m : T2) (beta : ℝ),
      thermal.d_i_m_0_t_i (L * q) (ofR L * om) (L * p) (ofR L * m) (beta / L) = (L : ℂ) ^ (-1 : ℤ) * thermal.d_i_m_0_t_i q om p m beta) ∧
    (∀ (q : ℝ) (om : T) (p : ℝ) (beta : ℝ),
      thermal.d_i_0_0_t_i (L * q) (ofR L * om) (L * p) (beta / L) = (L : ℂ) ^ (-1 : ℤ) * thermal.d_i_0_0_t_i q om p beta) :=
  ⟨scale_thermal_j_m_i hL,
   scale_thermal_j_0_i hL,
   scale_thermal_j_m_l_i hL,
   scale_thermal_j_0_l_i hL,
   scale_thermal_j_m_t_i hL,
   scale_thermal_j_0_t_i hL,
   scale_thermal_i_m_m_i hL,
   scale_thermal_i_m_m_i_same_mass hL,
   scale_thermal_i_m_0_i hL,
   scale_thermal_i_0_0_i hL,
   scale_thermal_i_m_m_l_i hL,
   scale_thermal_i_m_m_l_i_same_mass hL,
   scale_thermal_i_m_0_l_i hL,
   scale_thermal_i_0_0_l_i hL,
   scale_thermal_i_m_m_t_i hL,
   scale_thermal_i_m_m_t_i_same_mass hL,
   scale_thermal_i_m_0_t_i hL,
   scale_thermal_i_0_0_t_i hL,
   scale_thermal_d_j_m_i hL,
   scale_thermal_d_j_0_i hL,
   scale_thermal_d2_j_m_i hL,
   scale_thermal_d2_j_0_i hL,
   scale_thermal_d_j_m_l_i hL,
   scale_thermal_d_j_0_l_i hL,
   scale_thermal_d2_j_m_l_i hL,
   scale_thermal_d2_j_0_l_i hL,
   scale_thermal_d_j_m_t_i hL,
   scale_thermal_d_j_0_t_i hL,
   scale_thermal_d2_j_m_t_i hL,
   scale_thermal_d2_j_0_t_i hL,
   scale_thermal_d_i_m_m_i hL,
   scale_thermal_d_i_m_m_i_same_mass hL,
   scale_thermal_d_i_m_0_i hL,
   scale_thermal_d_i_0_0_i hL,
   scale_thermal_d_i_m_m_l_i hL,
   scale_thermal_d_i_m_m_l_i_same_mass hL,
   scale_thermal_d_i_m_0_l_i hL,
   scale_thermal_d_i_0_0_l_i hL,
   scale_thermal_d_i_m_m_t_i hL,
   scale_thermal_d_i_m_m_t_i_same_mass hL,
   scale_thermal_d_i_m_0_t_i hL,
   scale_thermal_d_i_0_0_t_i hL⟩

/-- All integrands of `thermal.zero_momentum`. -/
theorem C49_thermal_zero_momentum {L : ℝ} (hL : 0 < L) :
    (∀ (q : ℝ) (om : T1) (m1 : T2) (m2 : T3) (beta : ℝ),
      thermal.zero_momentum.i_m_m_i (L * q) (ofR L * om) (ofR L * m1) (ofR L * m2) (beta / L) = (L : ℂ) ^ (-1 : ℤ) * thermal.zero_momentum.i_m_m_i q om m1 m2 beta) ∧
    (∀ (q : ℝ) (om : T1) (m : T2) (beta : ℝ),
      thermal.zero_momentum.i_m_m_i_same_mass (L * q) (ofR L * om) (ofR L * m) (beta / L) = (L : ℂ) ^ (-1 : ℤ) * thermal.zero_momentum.i_m_m_i_same_mass q om m beta) ∧
    (∀ (q : ℝ) (om : T1) (m : T2) (beta : ℝ),
      thermal.zero_momentum.i_m_0_i (L * q) (ofR L * om) (ofR L * m) (beta / L) = (L : ℂ) ^ (-1 : ℤ) * thermal.zero_momentum.i_m_0_i q om m beta) ∧
    (∀ (q : ℝ) (om : T) (beta : ℝ),
      thermal.zero_momentum.i_0_0_i (L * q) (ofR L * om) (beta / L) = (L : ℂ) ^ (-1 : ℤ) * thermal.zero_momentum.i_0_0_i q om beta) ∧
    (∀ (q : ℝ) (om : T1) (m1 : T2) (m2 : T3) (beta : ℝ),
      thermal.zero_momentum.i_m_m_l_i (L * q) (ofR L * om) (ofR L * m1) (ofR L * m2) (beta / L) = (L : ℂ) ^ (1 : ℤ) * thermal.zero_momentum.i_m_m_l_i q om m1 m2 beta) ∧
    (∀ (q : ℝ) (om : T1) (m : T2) (beta : ℝ),
      thermal.zero_momentum.i_m_m_l_i_same_mass (L * q) (ofR L * om) (ofR L * m) (beta / L) = (L : ℂ) ^ (1 : ℤ) * thermal.zero_momentum.i_m_m_l_i_same_mass q om m beta) ∧
    (∀ (q : ℝ) (om : T1) (m : T2) (beta : ℝ),
      thermal.zero_momentum.i_m_0_l_i (L * q) (ofR L * om) (ofR L * m) (beta / L) = (L : ℂ) ^ (1 : ℤ) * thermal.zero_momentum.i_m_0_l_i q om m beta) ∧
    (∀ (q : ℝ) (om : T) (beta : ℝ),
      thermal.zero_momentum.i_0_0_l_i (L * q) (ofR L * om) (beta / L) = (L : ℂ) ^ (1 : ℤ) * thermal.zero_momentum.i_0_0_l_i q om beta) ∧
    (∀ (q : ℝ) (om : T1) (m1 : T2) (m2 : T3) (beta : ℝ),
      thermal.zero_momentum.i_m_m_t_i (L * q) (ofR L * om) (ofR L * m1) (ofR L * m2) (beta / L) = (L : ℂ) ^ (1 : ℤ) * thermal.zero_momentum.i_m_m_t_i q om m1 m2 beta) ∧
    (∀ (q : ℝ) (om : T1) (m : T2) (beta : ℝ),
      thermal.zero_momentum.i_m_m_t_i_same_mass (L * q) (ofR L * om) (ofR L * m) (beta / L) = (L : ℂ) ^ (1 : ℤ) * thermal.zero_momentum.i_m_m_t_i_same_mass q om m beta) ∧
    (∀ (q : ℝ) (om : T1) (m : T2) (beta : ℝ),
      thermal.zero_momentum.i_m_0_t_i (L * q) (ofR L * om) (ofR L * m) (beta / L) = (L : ℂ) ^ (1 : ℤ) * thermal.zero_momentum.i_m_0_t_i q om m beta) ∧
    (∀ (q : ℝ) (om : T) (beta : ℝ),
      thermal.zero_momentum.i_0_0_t_i (L * q) (ofR L * om) (beta / L) = (L : ℂ) ^ (1 : ℤ) * thermal.zero_momentum.i_0_0_t_i q om beta) ∧
    (∀ (q : ℝ) (om : T1) (m1 : T2) (m2 : T3) (beta : ℝ),
      thermal.zero_momentum.d_i_m_m_i (L * q) (ofR L * om) (ofR L * m1) (ofR L * m2) (beta / L) = (L : ℂ) ^ (-3 : ℤ) * thermal.zero_momentum.d_i_m_m_i q om m1 m2 beta) ∧
    (∀ (q : ℝ) (om : T1) (m : T2) (beta : ℝ),
      thermal.zero_momentum.d_i_m_m_i_same_mass (L * q) (ofR L * om) (ofR L * m) (beta / L) = (L : ℂ) ^ (-3 : ℤ) * thermal.zero_momentum.d_i_m_m_i_same_mass q om m beta) ∧
    (∀ (q : ℝ) (om : T1) (m : T2) (beta : ℝ),
      thermal.zero_momentum.d_i_m_0_i (L * q) (ofR L * om) (ofR L * m) (beta / L) = (L : ℂ) ^ (-3 : ℤ) * thermal.zero_momentum.d_i_m_0_i q om m beta) ∧
    (∀ (q : ℝ) (om : T) (beta : ℝ),
      thermal.zero_momentum.d_i_0_0_i (L * q) (ofR L * om) (beta / L) = (L : ℂ) ^ (-3 : ℤ) * thermal.zero_momentum.d_i_0_0_i q om beta) ∧
    (∀ (q : ℝ) (om : T1) (m1 : T2) (m2 : T3) (beta : ℝ),
      thermal.zero_momentum.d_i_m_m_l_i (L * q) (ofR L * om) (ofR L * m1) (ofR L * m2) (beta / L) = (L : ℂ) ^ (-1 : ℤ) * thermal.zero_momentum.d_i_m_m_l_i q om m1 m2 beta) ∧
    (∀ (q : ℝ) (om : T1) (m : T2) (beta : ℝ),
      thermal.zero_momentum.d_i_m_m_l_i_same_mass (L * q) (ofR L * om) (ofR L * m) (beta / L) = (L : ℂ) ^ (-1 : ℤ) * thermal.zero_momentum.d_i_m_m_l_i_same_mass q om m beta) ∧
    (∀ (q : ℝ) (om : T1) (m : T2) (beta : ℝ),
      thermal.zero_momentum.d_i_m_0_l_i (L * q) (ofR L * om) (ofR L * m) (beta / L) = (L : ℂ) ^ (-1 : ℤ) * thermal.zero_momentum.d_i_m_0_l_i q om m beta) ∧
    (∀ (q : ℝ) (om : T) (beta : ℝ),
      thermal.zero_momentum.d_i_0_0_l_i (L * q) (ofR L * om) (beta / L) = (L : ℂ) ^ (-1 : ℤ) * thermal.zero_momentum.d_i_0_0_l_i q om beta) ∧
    (∀ (q : ℝ) (om : T1) (m1 : T2) (m2 : T3) (beta : ℝ),
      thermal.zero_momentum.d_i_m_m_t_i (L * q) (ofR L * om) (ofR L * m1) (ofR L * m2) (beta / L) = (L : ℂ) ^ (-1 : ℤ) * thermal.zero_momentum.d_i_m_m_t_i q om m1 m2 beta) ∧
    (∀ (q : ℝ) (om : T1) (m : T2) (beta : ℝ),
      thermal.zero_momentum.d_i_m_m_t_i_same_mass (L * q) (ofR L * om) (ofR L * m) (beta / L) = (L : ℂ) ^ (-1 : ℤ) * thermal.zero_momentum.d_i_m_m_t_i_same_mass q om m beta) ∧
    (∀ (q : ℝ) (om : T1) (m : T2) (beta : ℝ),
      thermal.zero_momentum.d_i_m_0_t_i (L * q) (ofR L * om) (ofR L * m) (beta / L) = (L : ℂ) ^ (-1 : ℤ) * thermal.zero_momentum.d_i_m_0_t_i q om m beta) ∧
    (∀ (q : ℝ) (om : T) (beta : ℝ),
      thermal.zero_momentum.d_i_0_0_t_i (L * q) (ofR L * om) (beta / L) = (L : ℂ) ^ (-1 : ℤ) * thermal.zero_momentum.d_i_0_0_t_i q om beta) :=
  ⟨scale_thermal_zero_momentum_i_m_m_i hL,
   scale_thermal_zero_momentum_i_m_m_i_same_mass hL,
   scale_thermal_zero_momentum_i_m_0_i hL,
   scale_thermal_zero_momentum_i_0_0_i hL,
   scale_thermal_zero_momentum_i_m_m_l_i hL,
   scale_thermal_zero_momentum_i_m_m_l_i_same_mass hL,
   scale_thermal_zero_momentum_i_m_0_l_i hL,
   scale_thermal_zero_momentum_i_0_0_l_i hL,
   scale_thermal_zero_momentum_i_m_m_t_i hL,
   scale_thermal_zero_momentum_i_m_m_t_i_same_mass hL,
   scale_thermal_zero_momentum_i_m_0_t_i hL,
   scale_thermal_zero_momentum_i_0_0_t_i hL,
   scale_thermal_zero_momentum_d_i_m_m_i hL,
   scale_thermal_zero_momentum_d_i_m_m_i_same_mass hL,
   scale_thermal_zero_momentum_d_i_m_0_i hL,
   scale_thermal_zero_momentum_d_i_0_0_i hL,
   scale_thermal_zero_momentum_d_i_m_m_l_i hL,
   scale_thermal_zero_momentum_d_i_m_m_l_i_same_mass hL,
   scale_thermal_zero_momentum_d_i_m_0_l_i hL,
   scale_thermal_zero_momentum_d_i_0_0_l_i hL,
   scale_thermal_zero_momentum_d_i_m_m_t_i hL,
   scale_thermal_zero_momentum_d_i_m_m_t_i_same_mass hL,
   scale_thermal_zero_momentum_d_i_m_0_t_i hL,
   scale_thermal_zero_momentum_d_i_0_0_t_i hL⟩

/-- All integrands of `thermal.zero_matsubara`. -/
theorem C49_thermal_zero_matsubara {L : ℝ} (hL : 0 < L) :
    (∀ (q : ℝ) (p : ℝ) (m1 : T1) (m2 : T2) (beta : ℝ),
      thermal.zero_matsubara.i_m_m_i (L * q) (L * p) (ofR L * m1) (ofR L * m2) (beta / L) = (L : ℂ) ^ (-1 : ℤ) * thermal.zero_matsubara.i_m_m_i q p m1 m2 beta) ∧
    (∀ (q : ℝ) (p : ℝ) (m : T) (beta : ℝ),
      thermal.zero_matsubara.i_m_m_i_same_mass (L * q) (L * p) (ofR L * m) (beta / L) = (ofR L : T) ^ (-1 : ℤ) * thermal.zero_matsubara.i_m_m_i_same_mass q p m beta) ∧
    (∀ (q : ℝ) (p : ℝ) (m : T) (beta : ℝ),
      thermal.zero_matsubara.i_m_0_i (L * q) (L * p) (ofR L * m) (beta / L) = (L : ℂ) ^ (-1 : ℤ) * thermal.zero_matsubara.i_m_0_i q p m beta) ∧
    (∀ (q : ℝ) (p : ℝ) (beta : ℝ),
      thermal.zero_matsubara.i_0_0_i (L * q) (L * p) (beta / L) = L ^ (-1 : ℤ) * thermal.zero_matsubara.i_0_0_i q p beta) ∧
    (∀ (q : ℝ) (p : ℝ) (m1 : T1) (m2 : T2) (beta : ℝ),
      thermal.zero_matsubara.i_m_m_l_i (L * q) (L * p) (ofR L * m1) (ofR L * m2) (beta / L) = (L : ℂ) ^ (1 : ℤ) * thermal.zero_matsubara.i_m_m_l_i q p m1 m2 beta) ∧
    (∀ (q : ℝ) (p : ℝ) (m : T) (beta : ℝ),
      thermal.zero_matsubara.i_m_m_l_i_same_mass (L * q) (L * p) (ofR L * m) (beta / L) = (ofR L : T) ^ (1 : ℤ) * thermal.zero_matsubara.i_m_m_l_i_same_mass q p m beta) ∧
    (∀ (q : ℝ) (p : ℝ) (m : T) (beta : ℝ),
      thermal.zero_matsubara.i_m_0_l_i (L * q) (L * p) (ofR L * m) (beta / L) = (L : ℂ) ^ (1 : ℤ) * thermal.zero_matsubara.i_m_0_l_i q p m beta) ∧
    (∀ (q : ℝ) (p : ℝ) (beta : ℝ),
      thermal.zero_matsubara.i_0_0_l_i (L * q) (L * p) (beta / L) = L ^ (1 : ℤ) * thermal.zero_matsubara.i_0_0_l_i q p beta) ∧
    (∀ (q : ℝ) (p : ℝ) (m1 : T1) (m2 : T2) (beta : ℝ),
      thermal.zero_matsubara.i_m_m_t_i (L * q) (L * p) (ofR L * m1) (ofR L * m2) (beta / L) = (L : ℂ) ^ (1 : ℤ) * thermal.zero_matsubara.i_m_m_t_i q p m1 m2 beta) ∧
    (∀ (q : ℝ) (p : ℝ) (m : T) (beta : ℝ),
      thermal.zero_matsubara.i_m_m_t_i_same_mass (L * q) (L * p) (ofR L * m) (beta / L) = (ofR L : T) ^ (1 : ℤ) * thermal.zero_matsubara.i_m_m_t_i_same_mass q p m beta) ∧
    (∀ (q : ℝ) (p : ℝ) (m : T) (beta : ℝ),
      thermal.zero_matsubara.i_m_0_t_i (L * q) (L * p) (ofR L * m) (beta / L) = (L : ℂ) ^ (1 : ℤ) * thermal.zero_matsubara.i_m_0_t_i q p m beta) ∧
    (∀ (q : ℝ) (p : ℝ) (beta : ℝ),
      thermal.zero_matsubara.i_0_0_t_i (L * q) (L * p) (beta / L) = L ^ (1 : ℤ) * thermal.zero_matsubara.i_0_0_t_i q p beta) ∧
    (∀ (q : ℝ) (p : ℝ) (m1 : T1) (m2 : T2) (beta : ℝ),
      thermal.zero_matsubara.d_i_m_m_i (L * q) (L * p) (ofR L * m1) (ofR L * m2) (beta / L) = (L : ℂ) ^ (-3 : ℤ) * thermal.zero_matsubara.d_i_m_m_i q p m1 m2 beta) ∧
    (∀ (q : ℝ) (p : ℝ) (m : T) (beta : ℝ),
      thermal.zero_matsubara.d_i_m_m_i_same_mass (L * q) (L * p) (ofR L * m) (beta / L) = (ofR L : T) ^ (-3 : ℤ) * thermal.zero_matsubara.d_i_m_m_i_same_mass q p m beta) ∧
    (∀ (q : ℝ) (p : ℝ) (m : T) (beta : ℝ),
      thermal.zero_matsubara.d_i_m_0_i (L * q) (L * p) (ofR L * m) (beta / L) = (ofR L : T) ^ (-3 : ℤ) * thermal.zero_matsubara.d_i_m_0_i q p m beta) ∧
    (∀ (q : ℝ) (p : ℝ) (beta : ℝ),
      thermal.zero_matsubara.d_i_0_0_i (L * q) (L * p) (beta / L) = L ^ (-3 : ℤ) * thermal.zero_matsubara.d_i_0_0_i q p beta) ∧
    (∀ (q : ℝ) (p : ℝ) (m1 : T1) (m2 : T2) (beta : ℝ),
      thermal.zero_matsubara.d_i_m_m_l_i (L * q) (L * p) (ofR L * m1) (ofR L * m2) (beta / L) = (L : ℂ) ^ (-1 : ℤ) * thermal.zero_matsubara.d_i_m_m_l_i q p m1 m2 beta) ∧
    (∀ (q : ℝ) (p : ℝ) (m : T) (beta : ℝ),
      thermal.zero_matsubara.d_i_m_m_l_i_same_mass (L * q) (L * p) (ofR L * m) (beta / L) = (ofR L : T) ^ (-1 : ℤ) * thermal.zero_matsubara.d_i_m_m_l_i_same_mass q p m beta) ∧
    (∀ (q : ℝ) (p : ℝ) (m : T) (beta : ℝ),
      thermal.zero_matsubara.d_i_m_0_l_i (L * q) (L * p) (ofR L * m) (beta / L) = (ofR L : T) ^ (-1 : ℤ) * thermal.zero_matsubara.d_i_m_0_l_i q p m beta) ∧
    (∀ (q : ℝ) (p : ℝ) (beta : ℝ),
      thermal.zero_matsubara.d_i_0_0_l_i (L * q) (L * p) (beta / L) = L ^ (-1 : ℤ) * thermal.zero_matsubara.d_i_0_0_l_i q p beta) ∧
    (∀ (q : ℝ) (p : ℝ) (m1 : T1) (m2 : T2) (beta : ℝ),
      thermal.zero_matsubara.d_i_m_m_t_i (L * q) (L * p) (ofR L * m1) (ofR L * m2) (beta / L) = (L : ℂ) ^ (-1 : ℤ) * thermal.zero_matsubara.d_i_m_m_t_i q p m1 m2 beta) ∧
    (∀ (q : ℝ) (p : ℝ) (m : T) (beta : ℝ),
      thermal.zero_matsubara.d_i_m_m_t_i_same_mass (L * q) (L * p) (ofR L * m) (beta / L) = (ofR L : T) ^ (-1 : ℤ) * thermal.zero_matsubara.d_i_m_m_t_i_same_mass q p m beta) ∧
    (∀ (q : ℝ) (p : ℝ) (m : T) (beta : ℝ),
      thermal.zero_matsubara.d_i_m_0_t_i (L * q) (L * p) (ofR L * m) (beta / L) = (L : ℂ) ^ (-1 : ℤ) * thermal.zero_matsubara.d_i_m_0_t_i q p m beta) ∧
    (∀ (q : ℝ) (p : ℝ) (beta : ℝ),
      thermal.zero_matsubara.d_i_0_0_t_i (L * q) (L * p) (beta / L) = L ^ (-1 : ℤ) * thermal.zero_matsubara.d_i_0_0_t_i q p beta) :=
  ⟨scale_thermal_zero_matsubara_i_m_m_i hL,
   scale_thermal_zero_matsubara_i_m_m_i_same_mass hL,
   scale_thermal_zero_matsubara_i_m_0_i hL,
   scale_thermal_zero_matsubara_i_0_0_i hL,
   scale_thermal_zero_matsubara_i_m_m_l_i hL,
   scale_thermal_zero_matsubara_i_m_m_l_i_same_mass hL,
   scale_thermal_zero_matsubara_i_m_0_l_i hL,
   scale_thermal_zero_matsubara_i_0_0_l_i hL,
   scale_thermal_zero_matsubara_i_m_m_t_i hL,
   scale_thermal_zero_matsubara_i_m_m_t_i_same_mass hL,
   scale_thermal_zero_matsubara_i_m_0_t_i hL,
   scale_thermal_zero_matsubara_i_0_0_t_i hL,
   scale_thermal_zero_matsubara_d_i_m_m_i hL,
   scale_thermal_zero_matsubara_d_i_m_m_i_same_mass hL,
   scale_thermal_zero_matsubara_d_i_m_0_i hL,
   scale_thermal_zero_matsubara_d_i_0_0_i hL,
   scale_thermal_zero_matsubara_d_i_m_m_l_i hL,
   scale_thermal_zero_matsubara_d_i_m_m_l_i_same_mass hL,
   scale_thermal_zero_matsubara_d_i_m_0_l_i hL,
   scale_thermal_zero_matsubara_d_i_0_0_l_i hL,
   scale_thermal_zero_matsubara_d_i_m_m_t_i hL,
   scale_thermal_zero_matsubara_d_i_m_m_t_i_same_mass hL,
   scale_thermal_zero_matsubara_d_i_m_0_t_i hL,
   scale_thermal_zero_matsubara_d_i_0_0_t_i hL⟩

/-- All integrands of `ghost.thermal`. -/
theorem C49_ghost_thermal {L : ℝ} (hL : 0 < L) :
    (∀ (q : ℝ) (om : T) (p : ℝ) (m : ℝ) (beta : ℝ),
      ghost.thermal.self_energy_thermal_part_landau_i (L * q) (ofR L * om) (L * p) (L * m) (beta / L) = (L : ℂ) ^ (1 : ℤ) * ghost.thermal.self_energy_thermal_part_landau_i q om p m beta) :=
  scale_ghost_thermal_self_energy_thermal_part_landau_i hL

/-- All integrands of `ghost.thermal.zero_momentum`. -/
theorem C49_ghost_thermal_zero_momentum {L : ℝ} (hL : 0 < L) :
    (∀ (q : ℝ) (om : T) (m : ℝ) (beta : ℝ),
      ghost.thermal.zero_momentum.self_energy_thermal_part_landau_i (L * q) (ofR L * om) (L * m) (beta / L) = (L : ℂ) ^ (1 : ℤ) * ghost.thermal.zero_momentum.self_energy_thermal_part_landau_i q om m beta) :=
  scale_ghost_thermal_zero_momentum_self_energy_thermal_part_landau_i hL

/-- All integrands of `ghost.thermal.zero_matsubara`. -/
theorem C49_ghost_thermal_zero_matsubara {L : ℝ} (hL : 0 < L) :
    (∀ (q : ℝ) (p : ℝ) (m : ℝ) (beta : ℝ),
      ghost.thermal.zero_matsubara.self_energy_thermal_part_landau_i (L * q) (L * p) (L * m) (beta / L) = (L : ℂ) ^ (1 : ℤ) * ghost.thermal.zero_matsubara.self_energy_thermal_part_landau_i q p m beta) :=
  scale_ghost_thermal_zero_matsubara_self_energy_thermal_part_landau_i hL

/-- All integrands of `gluon.thermal`. -/
theorem C49_gluon_thermal {L : ℝ} (hL : 0 < L) :
    (∀ (q : ℝ) (om : T1) (p : T2) (m : ℝ) (beta : ℝ),
      gluon.thermal.polarization_glue_l_thermal_part_landau_i (L * q) (ofR L * om) (ofR L * p) (L * m) (beta / L) = (L : ℂ) ^ (1 : ℤ) * gluon.thermal.polarization_glue_l_thermal_part_landau_i q om p m beta) ∧
    (∀ (q : ℝ) (om : T) (p : ℝ) (m : ℝ) (beta : ℝ),
      gluon.thermal.polarization_glue_t_thermal_part_landau_i (L * q) (ofR L * om) (L * p) (L * m) (beta / L) = (L : ℂ) ^ (1 : ℤ) * gluon.thermal.polarization_glue_t_thermal_part_landau_i q om p m beta) ∧
    (∀ (k : Consts ℝ) (q : ℝ) (om : T1) (p : T2) (mq : ℝ) (beta : ℝ) (mu : ℝ),
      gluon.thermal.polarization_quark_l_thermal_part_landau_i k (L * q) (ofR L * om) (ofR L * p) (L * mq) (beta / L) (L * mu) = (L : ℂ) ^ (1 : ℤ) * gluon.thermal.polarization_quark_l_thermal_part_landau_i k q om p mq beta mu) ∧
    (∀ (k : Consts ℝ) (q : ℝ) (om : T) (p : ℝ) (mq : ℝ) (beta : ℝ) (mu : ℝ),
      gluon.thermal.polarization_quark_t_thermal_part_landau_i k (L * q) (ofR L * om) (L * p) (L * mq) (beta / L) (L * mu) = (L : ℂ) ^ (1 : ℤ) * gluon.thermal.polarization_quark_t_thermal_part_landau_i k q om p mq beta mu) ∧
    (∀ (k : Consts ℝ) (q : ℝ) (om : T1) (p : T2) (mq : ℝ) (mu : ℝ),
      gluon.thermal.polarization_quark_l_thermal_part_zero_temp_landau_i k (L * q) (ofR L * om) (ofR L * p) (L * mq) (L * mu) = (L : ℂ) ^ (1 : ℤ) * gluon.thermal.polarization_quark_l_thermal_part_zero_temp_landau_i k q om p mq mu) ∧
    (∀ (k : Consts ℝ) (q : ℝ) (om : T) (p : ℝ) (mq : ℝ) (mu : ℝ),
      gluon.thermal.polarization_quark_t_thermal_part_zero_temp_landau_i k (L * q) (ofR L * om) (L * p) (L * mq) (L * mu) = (L : ℂ) ^ (1 : ℤ) * gluon.thermal.polarization_quark_t_thermal_part_zero_temp_landau_i k q om p mq mu) :=
  ⟨scale_gluon_thermal_polarization_glue_l_thermal_part_landau_i hL,
   scale_gluon_thermal_polarization_glue_t_thermal_part_landau_i hL,
   scale_gluon_thermal_polarization_quark_l_thermal_part_landau_i hL,
   scale_gluon_thermal_polarization_quark_t_thermal_part_landau_i hL,
   scale_gluon_thermal_polarization_quark_l_thermal_part_zero_temp_landau_i hL,
   scale_gluon_thermal_polarization_quark_t_thermal_part_zero_temp_landau_i hL⟩

/-- All integrands of `gluon.thermal.zero_matsubara`. -/
theorem C49_gluon_thermal_zero_matsubara {L : ℝ} (hL : 0 < L) :
    (∀ (q : ℝ) (p : ℝ) (m : ℝ) (beta : ℝ),
      gluon.thermal.zero_matsubara.polarization_glue_l_thermal_part_landau_i (L * q) (L * p) (L * m) (beta / L) = (L : ℂ) ^ (1 : ℤ) * gluon.thermal.zero_matsubara.polarization_glue_l_thermal_part_landau_i q p m beta) ∧
    (∀ (q : ℝ) (p : ℝ) (m : ℝ) (beta : ℝ),
      gluon.thermal.zero_matsubara.polarization_glue_t_thermal_part_landau_i (L * q) (L * p) (L * m) (beta / L) = (L : ℂ) ^ (1 : ℤ) * gluon.thermal.zero_matsubara.polarization_glue_t_thermal_part_landau_i q p m beta) ∧
    (∀ (k : Consts ℝ) (q : ℝ) (p : ℝ) (mq : ℝ) (beta : ℝ) (mu : ℝ),
      gluon.thermal.zero_matsubara.polarization_quark_l_thermal_part_landau_i k (L * q) (L * p) (L * mq) (beta / L) (L * mu) = L ^ (1 : ℤ) * gluon.thermal.zero_matsubara.polarization_quark_l_thermal_part_landau_i k q p mq beta mu) ∧
    (∀ (k : Consts ℝ) (q : ℝ) (p : ℝ) (mq : ℝ) (beta : ℝ) (mu : ℝ),
      gluon.thermal.zero_matsubara.polarization_quark_t_thermal_part_landau_i k (L * q) (L * p) (L * mq) (beta / L) (L * mu) = L ^ (1 : ℤ) * gluon.thermal.zero_matsubara.polarization_quark_t_thermal_part_landau_i k q p mq beta mu) ∧
    (∀ (k : Consts ℝ) (q : ℝ) (p : ℝ) (mq : ℝ) (mu : ℝ),
      gluon.thermal.zero_matsubara.polarization_quark_l_thermal_part_zero_temp_landau_i k (L * q) (L * p) (L * mq) (L * mu) = L ^ (1 : ℤ) * gluon.thermal.zero_matsubara.polarization_quark_l_thermal_part_zero_temp_landau_i k q p mq mu) ∧
    (∀ (k : Consts ℝ) (q : ℝ) (p : ℝ) (mq : ℝ) (mu : ℝ),
      gluon.thermal.zero_matsubara.polarization_quark_t_thermal_part_zero_temp_landau_i k (L * q) (L * p) (L * mq) (L * mu) = L ^ (1 : ℤ) * gluon.thermal.zero_matsubara.polarization_quark_t_thermal_part_zero_temp_landau_i k q p mq mu) :=
  ⟨scale_gluon_thermal_zero_matsubara_polarization_glue_l_thermal_part_landau_i hL,
   scale_gluon_thermal_zero_matsubara_polarization_glue_t_thermal_part_landau_i hL,
   scale_gluon_thermal_zero_matsubara_polarization_quark_l_thermal_part_landau_i hL,
   scale_gluon_thermal_zero_matsubara_polarization_quark_t_thermal_part_landau_i hL,
   scale_gluon_thermal_zero_matsubara_polarization_quark_l_thermal_part_zero_temp_landau_i hL,
   scale_gluon_thermal_zero_matsubara_polarization_quark_t_thermal_part_zero_temp_landau_i hL⟩

/-- All integrands of `gluon.thermal.zero_momentum`. -/
theorem C49_gluon_thermal_zero_momentum {L : ℝ} (hL : 0 < L) :
    (∀ (q : ℝ) (om : T) (m : ℝ) (beta : ℝ),
      gluon.thermal.zero_momentum.polarization_glue_l_thermal_part_landau_i (L * q) (ofR L * om) (L * m) (beta / L) = (L : ℂ) ^ (1 : ℤ) * gluon.thermal.zero_momentum.polarization_glue_l_thermal_part_landau_i q om m beta) ∧
    (∀ (q : ℝ) (om : T) (m : ℝ) (beta : ℝ),
      gluon.thermal.zero_momentum.polarization_glue_t_thermal_part_landau_i (L * q) (ofR L * om) (L * m) (beta / L) = (L : ℂ) ^ (1 : ℤ) * gluon.thermal.zero_momentum.polarization_glue_t_thermal_part_landau_i q om m beta) ∧
    (∀ (k : Consts ℝ) (q : ℝ) (om : T) (mq : ℝ) (beta : ℝ) (mu : ℝ),
      gluon.thermal.zero_momentum.polarization_quark_l_thermal_part_landau_i k (L * q) (ofR L * om) (L * mq) (beta / L) (L * mu) = (ofR L : T) ^ (1 : ℤ) * gluon.thermal.zero_momentum.polarization_quark_l_thermal_part_landau_i k q om mq beta mu) ∧
    (∀ (k : Consts ℝ) (q : ℝ) (om : T) (mq : ℝ) (beta : ℝ) (mu : ℝ),
      gluon.thermal.zero_momentum.polarization_quark_t_thermal_part_landau_i k (L * q) (ofR L * om) (L * mq) (beta / L) (L * mu) = (ofR L : T) ^ (1 : ℤ) * gluon.thermal.zero_momentum.polarization_quark_t_thermal_part_landau_i k q om mq beta mu) ∧
    (∀ (k : Consts ℝ) (q : ℝ) (om : T) (mq : ℝ) (mu : ℝ),
      gluon.thermal.zero_momentum.polarization_quark_l_thermal_part_zero_temp_landau_i k (L * q) (ofR L * om) (L * mq) (L * mu) = (ofR L : T) ^ (1 : ℤ) * gluon.thermal.zero_momentum.polarization_quark_l_thermal_part_zero_temp_landau_i k q om mq mu) ∧
    (∀ (k : Consts ℝ) (q : ℝ) (om : T) (mq : ℝ) (mu : ℝ),
      gluon.thermal.zero_momentum.polarization_quark_t_thermal_part_zero_temp_landau_i k (L * q) (ofR L * om) (L * mq) (L * mu) = (ofR L : T) ^ (1 : ℤ) * gluon.thermal.zero_momentum.polarization_quark_t_thermal_part_zero_temp_landau_i k q om mq mu) :=
  ⟨scale_gluon_thermal_zero_momentum_polarization_glue_l_thermal_part_landau_i hL,
   scale_gluon_thermal_zero_momentum_polarization_glue_t_thermal_part_landau_i hL,
   scale_gluon_thermal_zero_momentum_polarization_quark_l_thermal_part_landau_i hL,
   scale_gluon_thermal_zero_momentum_polarization_quark_t_thermal_part_landau_i hL,
   scale_gluon_thermal_zero_momentum_polarization_quark_l_thermal_part_zero_temp_landau_i hL,
   scale_gluon_thermal_zero_momentum_polarization_quark_t_thermal_part_zero_temp_landau_i hL⟩

/- GeV to MeV: all energies are multiplied by 1000, the inverse temperature divided by 1000. -/
example : ghost.thermal.self_energy_thermal_part_landau_i (1000 * 1) ((1000 : ℝ) * (2 : ℝ)) (1000 * 3)
      (1000 * 0.656) (5 / 1000) =
    ((1000 : ℝ) : ℂ) ^ (1 : ℤ) *
      ghost.thermal.self_energy_thermal_part_landau_i 1 (2 : ℝ) 3 0.656 5 :=
  C49_ghost_thermal (T := ℝ) (by norm_num : (0 : ℝ) < 1000) 1 2 3 0.656 5

end Qcd
