import Verif.Lemmas.ThermalToC

/-! # C33: real and complex entry points of the thermal integrands agree

`T, T1, T2, ...` are the argument types of a call: each of them can be `ℝ` or `ℂ`. The left hand
sides are the calls with these types, the right hand sides the calls in which all generic
arguments have been converted to complex numbers. -/

namespace Qcd
open consts (Consts)

variable {T T1 T2 T3 T4 : Type} [Num T] [Num T1] [Num T2] [Num T3] [Num T4]

/-- All generic functions of `thermal`. -/
theorem C33_thermal :
    (∀ (om : T1) (p : T2) (en : T3) (delta : T4),
      thermal.r_0 om p en delta = thermal.r_0 (toC om) (toC p) (toC en) (toC delta)) ∧
    (∀ (om : T1) (p : T2) (en : T3),
      thermal.r_0_same_mass om p en = thermal.r_0_same_mass (toC om) (toC p) (toC en)) ∧
    (∀ (q : ℝ) (om : T1) (p : T2) (en : T3) (delta : T4),
      thermal.tlog q om p en delta = thermal.tlog q (toC om) (toC p) (toC en) (toC delta)) ∧
    (∀ (q : ℝ) (om : T1) (p : T2) (en : T3),
      thermal.tlog_same_mass q om p en = thermal.tlog_same_mass q (toC om) (toC p) (toC en)) ∧
    (∀ (q : ℝ) (om : T1) (p : T2),
      thermal.tlog_zero_mass q om p = thermal.tlog_zero_mass q (toC om) (toC p)) ∧
    (∀ (q : ℝ) (om : T1) (p : T2) (en : T3) (delta : T4),
      thermal.tlog_l q om p en delta = thermal.tlog_l q (toC om) (toC p) (toC en) (toC delta)) ∧
    (∀ (q : ℝ) (om : T1) (p : T2) (en : T3),
      thermal.tlog_l_same_mass q om p en = thermal.tlog_l_same_mass q (toC om) (toC p) (toC en)) ∧
    (∀ (q : ℝ) (om : T1) (p : T2),
      thermal.tlog_l_zero_mass q om p = thermal.tlog_l_zero_mass q (toC om) (toC p)) ∧
    (∀ (q : ℝ) (om : T1) (p : ℝ) (en : T2) (delta : T3),
      thermal.tlog_t q om p en delta = thermal.tlog_t q (toC om) p (toC en) (toC delta)) ∧
    (∀ (q : ℝ) (om : T1) (p : ℝ) (en : T2),
      thermal.tlog_t_same_mass q om p en = thermal.tlog_t_same_mass q (toC om) p (toC en)) ∧
    (∀ (q : ℝ) (om : T) (p : ℝ),
      thermal.tlog_t_zero_mass q om p = thermal.tlog_t_zero_mass q (toC om) p) ∧
    (∀ (q : ℝ) (m : T) (beta : ℝ),
      toC (thermal.j_m_i q m beta) = thermal.j_m_i q (toC m) beta) ∧
    (∀ (q : ℝ) (m : T) (beta : ℝ),
      toC (thermal.j_m_l_i q m beta) = thermal.j_m_l_i q (toC m) beta) ∧
    (∀ (q : ℝ) (m : T) (beta : ℝ),
      toC (thermal.j_m_t_i q m beta) = thermal.j_m_t_i q (toC m) beta) ∧
    (∀ (q : ℝ) (om : T1) (p : ℝ) (m1 : T2) (m2 : T3) (beta : ℝ),
      thermal.i_m_m_i q om p m1 m2 beta = thermal.i_m_m_i q (toC om) p (toC m1) (toC m2) beta) ∧
    (∀ (q : ℝ) (om : T1) (p : T2) (m : T3) (beta : ℝ),
      thermal.i_m_m_i_same_mass q om p m beta = thermal.i_m_m_i_same_mass q (toC om) (toC p) (toC m) beta) ∧
    (∀ (q : ℝ) (om : T1) (p : T2) (m : T3) (beta : ℝ),
      thermal.i_m_0_i q om p m beta = thermal.i_m_0_i q (toC om) (toC p) (toC m) beta) ∧
    (∀ (q : ℝ) (om : T) (p : ℝ) (beta : ℝ),
      thermal.i_0_0_i q om p beta = thermal.i_0_0_i q (toC om) p beta) ∧
    (∀ (q : ℝ) (om : T1) (p : ℝ) (m1 : T2) (m2 : T3) (beta : ℝ),
      thermal.i_m_m_l_i q om p m1 m2 beta = thermal.i_m_m_l_i q (toC om) p (toC m1) (toC m2) beta) ∧
    (∀ (q : ℝ) (om : T1) (p : T2) (m : T3) (beta : ℝ),
      thermal.i_m_m_l_i_same_mass q om p m beta = thermal.i_m_m_l_i_same_mass q (toC om) (toC p) (toC m) beta) ∧
    (∀ (q : ℝ) (om : T1) (p : T2) (m : T3) (beta : ℝ),
      thermal.i_m_0_l_i q om p m beta = thermal.i_m_0_l_i q (toC om) (toC p) (toC m) beta) ∧
    (∀ (q : ℝ) (om : T1) (p : T2) (beta : ℝ),
      thermal.i_0_0_l_i q om p beta = thermal.i_0_0_l_i q (toC om) (toC p) beta) ∧
    (∀ (q : ℝ) (om : T1) (p : ℝ) (m1 : T2) (m2 : T3) (beta : ℝ),
      thermal.i_m_m_t_i q om p m1 m2 beta = thermal.i_m_m_t_i q (toC om) p (toC m1) (toC m2) beta) ∧
    (∀ (q : ℝ) (om : T1) (p : ℝ) (m : T2) (beta : ℝ),
      thermal.i_m_m_t_i_same_mass q om p m beta = thermal.i_m_m_t_i_same_mass q (toC om) p (toC m) beta) ∧
    (∀ (q : ℝ) (om : T1) (p : ℝ) (m : T2) (beta : ℝ),
      thermal.i_m_0_t_i q om p m beta = thermal.i_m_0_t_i q (toC om) p (toC m) beta) ∧
    (∀ (q : ℝ) (om : T) (p : ℝ) (beta : ℝ),
      thermal.i_0_0_t_i q om p beta = thermal.i_0_0_t_i q (toC om) p beta) ∧
    (∀ (q : ℝ) (m : T) (beta : ℝ),
      toC (thermal.d_j_m_i q m beta) = thermal.d_j_m_i q (toC m) beta) ∧
    (∀ (q : ℝ) (m : T) (beta : ℝ),
      toC (thermal.d2_j_m_i q m beta) = thermal.d2_j_m_i q (toC m) beta) ∧
    (∀ (q : ℝ) (m : T) (beta : ℝ),
      toC (thermal.d_j_m_l_i q m beta) = thermal.d_j_m_l_i q (toC m) beta) ∧
    (∀ (q : ℝ) (m : T) (beta : ℝ),
      toC (thermal.d2_j_m_l_i q m beta) = thermal.d2_j_m_l_i q (toC m) beta) ∧
    (∀ (q : ℝ) (m : T) (beta : ℝ),
      toC (thermal.d_j_m_t_i q m beta) = thermal.d_j_m_t_i q (toC m) beta) ∧
    (∀ (q : ℝ) (m : T) (beta : ℝ),
      toC (thermal.d2_j_m_t_i q m beta) = thermal.d2_j_m_t_i q (toC m) beta) ∧
    (∀ (q : ℝ) (om : T1) (p : ℝ) (m1 : T2) (m2 : T3) (beta : ℝ),
      thermal.d_i_m_m_i q om p m1 m2 beta = thermal.d_i_m_m_i q (toC om) p (toC m1) (toC m2) beta) ∧
    (∀ (q : ℝ) (om : T1) (p : T2) (m : T3) (beta : ℝ),
      thermal.d_i_m_m_i_same_mass q om p m beta = thermal.d_i_m_m_i_same_mass q (toC om) (toC p) (toC m) beta) ∧
    (∀ (q : ℝ) (om : T1) (p : T2) (m : T3) (beta : ℝ),
      thermal.d_i_m_0_i q om p m beta = thermal.d_i_m_0_i q (toC om) (toC p) (toC m) beta) ∧
    (∀ (q : ℝ) (om : T) (p : ℝ) (beta : ℝ),
      thermal.d_i_0_0_i q om p beta = thermal.d_i_0_0_i q (toC om) p beta) ∧
    (∀ (q : ℝ) (om : T1) (p : ℝ) (m1 : T2) (m2 : T3) (beta : ℝ),
      thermal.d_i_m_m_l_i q om p m1 m2 beta = thermal.d_i_m_m_l_i q (toC om) p (toC m1) (toC m2) beta) ∧
    (∀ (q : ℝ) (om : T1) (p : T2) (m : T3) (beta : ℝ),
      thermal.d_i_m_m_l_i_same_mass q om p m beta = thermal.d_i_m_m_l_i_same_mass q (toC om) (toC p) (toC m) beta) ∧
    (∀ (q : ℝ) (om : T1) (p : T2) (m : T3) (beta : ℝ),
      thermal.d_i_m_0_l_i q om p m beta = thermal.d_i_m_0_l_i q (toC om) (toC p) (toC m) beta) ∧
    (∀ (q : ℝ) (om : T) (p : ℝ) (beta : ℝ),
      thermal.d_i_0_0_l_i q om p beta = thermal.d_i_0_0_l_i q (toC om) p beta) ∧
    (∀ (q : ℝ) (om : T1) (p : ℝ) (m1 : T2) (m2 : T3) (beta : ℝ),
      thermal.d_i_m_m_t_i q om p m1 m2 beta = thermal.d_i_m_m_t_i q (toC om) p (toC m1) (toC m2) beta) ∧
    (∀ (q : ℝ) (om : T1) (p : ℝ) (m : T2) (beta : ℝ),
      thermal.d_i_m_m_t_i_same_mass q om p m beta = thermal.d_i_m_m_t_i_same_mass q (toC om) p (toC m) beta) ∧
    (∀ (q : ℝ) (om : T1) (p : ℝ) (m : T2) (beta : ℝ),
      thermal.d_i_m_0_t_i q om p m beta = thermal.d_i_m_0_t_i q (toC om) p (toC m) beta) ∧
    (∀ (q : ℝ) (om : T) (p : ℝ) (beta : ℝ),
      thermal.d_i_0_0_t_i q om p beta = thermal.d_i_0_0_t_i q (toC om) p beta) :=
  ⟨toC_thermal_r_0,
   toC_thermal_r_0_same_mass,
   toC_thermal_tlog,
   toC_thermal_tlog_same_mass,
   toC_thermal_tlog_zero_mass,
   toC_thermal_tlog_l,
   toC_thermal_tlog_l_same_mass,
   toC_thermal_tlog_l_zero_mass,
   toC_thermal_tlog_t,
   toC_thermal_tlog_t_same_mass,
   toC_thermal_tlog_t_zero_mass,
   toC_thermal_j_m_i,
   toC_thermal_j_m_l_i,
   toC_thermal_j_m_t_i,
   toC_thermal_i_m_m_i,
   toC_thermal_i_m_m_i_same_mass,
   toC_thermal_i_m_0_i,
   toC_thermal_i_0_0_i,
   toC_thermal_i_m_m_l_i,
   toC_thermal_i_m_m_l_i_same_mass,
   toC_thermal_i_m_0_l_i,
   toC_thermal_i_0_0_l_i,
   toC_thermal_i_m_m_t_i,
   toC_thermal_i_m_m_t_i_same_mass,
   toC_thermal_i_m_0_t_i,
   toC_thermal_i_0_0_t_i,
   toC_thermal_d_j_m_i,
   toC_thermal_d2_j_m_i,
   toC_thermal_d_j_m_l_i,
   toC_thermal_d2_j_m_l_i,
   toC_thermal_d_j_m_t_i,
   toC_thermal_d2_j_m_t_i,
   toC_thermal_d_i_m_m_i,
   toC_thermal_d_i_m_m_i_same_mass,
   toC_thermal_d_i_m_0_i,
   toC_thermal_d_i_0_0_i,
   toC_thermal_d_i_m_m_l_i,
   toC_thermal_d_i_m_m_l_i_same_mass,
   toC_thermal_d_i_m_0_l_i,
   toC_thermal_d_i_0_0_l_i,
   toC_thermal_d_i_m_m_t_i,
   toC_thermal_d_i_m_m_t_i_same_mass,
   toC_thermal_d_i_m_0_t_i,
   toC_thermal_d_i_0_0_t_i⟩

/-- All generic functions of `thermal.zero_momentum`. -/
theorem C33_thermal_zero_momentum :
    (∀ (om : T1) (en : T2) (delta : T3),
      thermal.zero_momentum.r_0 om en delta = thermal.zero_momentum.r_0 (toC om) (toC en) (toC delta)) ∧
    (∀ (om : T1) (en : T2),
      thermal.zero_momentum.r_0_same_mass om en = thermal.zero_momentum.r_0_same_mass (toC om) (toC en)) ∧
    (∀ (q : ℝ) (om : T1) (m1 : T2) (m2 : T3) (beta : ℝ),
      thermal.zero_momentum.i_m_m_i q om m1 m2 beta = thermal.zero_momentum.i_m_m_i q (toC om) (toC m1) (toC m2) beta) ∧
    (∀ (q : ℝ) (om : T1) (m : T2) (beta : ℝ),
      thermal.zero_momentum.i_m_m_i_same_mass q om m beta = thermal.zero_momentum.i_m_m_i_same_mass q (toC om) (toC m) beta) ∧
    (∀ (q : ℝ) (om : T1) (m : T2) (beta : ℝ),
      thermal.zero_momentum.i_m_0_i q om m beta = thermal.zero_momentum.i_m_0_i q (toC om) (toC m) beta) ∧
    (∀ (q : ℝ) (om : T) (beta : ℝ),
      thermal.zero_momentum.i_0_0_i q om beta = thermal.zero_momentum.i_0_0_i q (toC om) beta) ∧
    (∀ (q : ℝ) (om : T1) (m1 : T2) (m2 : T3) (beta : ℝ),
      thermal.zero_momentum.i_m_m_l_i q om m1 m2 beta = thermal.zero_momentum.i_m_m_l_i q (toC om) (toC m1) (toC m2) beta) ∧
    (∀ (q : ℝ) (om : T1) (m : T2) (beta : ℝ),
      thermal.zero_momentum.i_m_m_l_i_same_mass q om m beta = thermal.zero_momentum.i_m_m_l_i_same_mass q (toC om) (toC m) beta) ∧
    (∀ (q : ℝ) (om : T1) (m : T2) (beta : ℝ),
      thermal.zero_momentum.i_m_0_l_i q om m beta = thermal.zero_momentum.i_m_0_l_i q (toC om) (toC m) beta) ∧
    (∀ (q : ℝ) (om : T) (beta : ℝ),
      thermal.zero_momentum.i_0_0_l_i q om beta = thermal.zero_momentum.i_0_0_l_i q (toC om) beta) ∧
    (∀ (q : ℝ) (om : T1) (m1 : T2) (m2 : T3) (beta : ℝ),
      thermal.zero_momentum.i_m_m_t_i q om m1 m2 beta = thermal.zero_momentum.i_m_m_t_i q (toC om) (toC m1) (toC m2) beta) ∧
    (∀ (q : ℝ) (om : T1) (m : T2) (beta : ℝ),
      thermal.zero_momentum.i_m_m_t_i_same_mass q om m beta = thermal.zero_momentum.i_m_m_t_i_same_mass q (toC om) (toC m) beta) ∧
    (∀ (q : ℝ) (om : T1) (m : T2) (beta : ℝ),
      thermal.zero_momentum.i_m_0_t_i q om m beta = thermal.zero_momentum.i_m_0_t_i q (toC om) (toC m) beta) ∧
    (∀ (q : ℝ) (om : T) (beta : ℝ),
      thermal.zero_momentum.i_0_0_t_i q om beta = thermal.zero_momentum.i_0_0_t_i q (toC om) beta) ∧
    (∀ (q : ℝ) (om : T1) (m1 : T2) (m2 : T3) (beta : ℝ),
      thermal.zero_momentum.d_i_m_m_i q om m1 m2 beta = thermal.zero_momentum.d_i_m_m_i q (toC om) (toC m1) (toC m2) beta) ∧
    (∀ (q : ℝ) (om : T1) (m : T2) (beta : ℝ),
      thermal.zero_momentum.d_i_m_m_i_same_mass q om m beta = thermal.zero_momentum.d_i_m_m_i_same_mass q (toC om) (toC m) beta) ∧
    (∀ (q : ℝ) (om : T1) (m : T2) (beta : ℝ),
      thermal.zero_momentum.d_i_m_0_i q om m beta = thermal.zero_momentum.d_i_m_0_i q (toC om) (toC m) beta) ∧
    (∀ (q : ℝ) (om : T) (beta : ℝ),
      thermal.zero_momentum.d_i_0_0_i q om beta = thermal.zero_momentum.d_i_0_0_i q (toC om) beta) ∧
    (∀ (q : ℝ) (om : T1) (m1 : T2) (m2 : T3) (beta : ℝ),
      thermal.zero_momentum.d_i_m_m_l_i q om m1 m2 beta = thermal.zero_momentum.d_i_m_m_l_i q (toC om) (toC m1) (toC m2) beta) ∧
    (∀ (q : ℝ) (om : T1) (m : T2) (beta : ℝ),
      thermal.zero_momentum.d_i_m_m_l_i_same_mass q om m beta = thermal.zero_momentum.d_i_m_m_l_i_same_mass q (toC om) (toC m) beta) ∧
    (∀ (q : ℝ) (om : T1) (m : T2) (beta : ℝ),
      thermal.zero_momentum.d_i_m_0_l_i q om m beta = thermal.zero_momentum.d_i_m_0_l_i q (toC om) (toC m) beta) ∧
    (∀ (q : ℝ) (om : T) (beta : ℝ),
      thermal.zero_momentum.d_i_0_0_l_i q om beta = thermal.zero_momentum.d_i_0_0_l_i q (toC om) beta) ∧
    (∀ (q : ℝ) (om : T1) (m1 : T2) (m2 : T3) (beta : ℝ),
      thermal.zero_momentum.d_i_m_m_t_i q om m1 m2 beta = thermal.zero_momentum.d_i_m_m_t_i q (toC om) (toC m1) (toC m2) beta) ∧
    (∀ (q : ℝ) (om : T1) (m : T2) (beta : ℝ),
      thermal.zero_momentum.d_i_m_m_t_i_same_mass q om m beta = thermal.zero_momentum.d_i_m_m_t_i_same_mass q (toC om) (toC m) beta) ∧
    (∀ (q : ℝ) (om : T1) (m : T2) (beta : ℝ),
      thermal.zero_momentum.d_i_m_0_t_i q om m beta = thermal.zero_momentum.d_i_m_0_t_i q (toC om) (toC m) beta) ∧
    (∀ (q : ℝ) (om : T) (beta : ℝ),
      thermal.zero_momentum.d_i_0_0_t_i q om beta = thermal.zero_momentum.d_i_0_0_t_i q (toC om) beta) :=
  ⟨toC_thermal_zero_momentum_r_0,
   toC_thermal_zero_momentum_r_0_same_mass,
   toC_thermal_zero_momentum_i_m_m_i,
   toC_thermal_zero_momentum_i_m_m_i_same_mass,
   toC_thermal_zero_momentum_i_m_0_i,
   toC_thermal_zero_momentum_i_0_0_i,
   toC_thermal_zero_momentum_i_m_m_l_i,
   toC_thermal_zero_momentum_i_m_m_l_i_same_mass,
   toC_thermal_zero_momentum_i_m_0_l_i,
   toC_thermal_zero_momentum_i_0_0_l_i,
   toC_thermal_zero_momentum_i_m_m_t_i,
   toC_thermal_zero_momentum_i_m_m_t_i_same_mass,
   toC_thermal_zero_momentum_i_m_0_t_i,
   toC_thermal_zero_momentum_i_0_0_t_i,
   toC_thermal_zero_momentum_d_i_m_m_i,
   toC_thermal_zero_momentum_d_i_m_m_i_same_mass,
   toC_thermal_zero_momentum_d_i_m_0_i,
   toC_thermal_zero_momentum_d_i_0_0_i,
   toC_thermal_zero_momentum_d_i_m_m_l_i,
   toC_thermal_zero_momentum_d_i_m_m_l_i_same_mass,
   toC_thermal_zero_momentum_d_i_m_0_l_i,
   toC_thermal_zero_momentum_d_i_0_0_l_i,
   toC_thermal_zero_momentum_d_i_m_m_t_i,
   toC_thermal_zero_momentum_d_i_m_m_t_i_same_mass,
   toC_thermal_zero_momentum_d_i_m_0_t_i,
   toC_thermal_zero_momentum_d_i_0_0_t_i⟩

/-- All generic functions of `thermal.zero_matsubara`. -/
theorem C33_thermal_zero_matsubara :
    (∀ (p : ℝ) (delta : T),
      toC (thermal.zero_matsubara.r_0 p delta) = thermal.zero_matsubara.r_0 p (toC delta)) ∧
    (∀ (q : ℝ) (p : ℝ) (delta : T),
      thermal.zero_matsubara.tlog q p delta = thermal.zero_matsubara.tlog q p (toC delta)) ∧
    (∀ (q : ℝ) (p : ℝ) (delta : T),
      thermal.zero_matsubara.tlog_t q p delta = thermal.zero_matsubara.tlog_t q p (toC delta)) ∧
    (∀ (q : ℝ) (p : ℝ) (m1 : T1) (m2 : T2) (beta : ℝ),
      thermal.zero_matsubara.i_m_m_i q p m1 m2 beta = thermal.zero_matsubara.i_m_m_i q p (toC m1) (toC m2) beta) ∧
    (∀ (q : ℝ) (p : ℝ) (m : T) (beta : ℝ),
      toC (thermal.zero_matsubara.i_m_m_i_same_mass q p m beta) = thermal.zero_matsubara.i_m_m_i_same_mass q p (toC m) beta) ∧
    (∀ (q : ℝ) (p : ℝ) (m : T) (beta : ℝ),
      thermal.zero_matsubara.i_m_0_i q p m beta = thermal.zero_matsubara.i_m_0_i q p (toC m) beta) ∧
    (∀ (q : ℝ) (p : ℝ) (m1 : T1) (m2 : T2) (beta : ℝ),
      thermal.zero_matsubara.i_m_m_l_i q p m1 m2 beta = thermal.zero_matsubara.i_m_m_l_i q p (toC m1) (toC m2) beta) ∧
    (∀ (q : ℝ) (p : ℝ) (m : T) (beta : ℝ),
      toC (thermal.zero_matsubara.i_m_m_l_i_same_mass q p m beta) = thermal.zero_matsubara.i_m_m_l_i_same_mass q p (toC m) beta) ∧
    (∀ (q : ℝ) (p : ℝ) (m : T) (beta : ℝ),
      thermal.zero_matsubara.i_m_0_l_i q p m beta = thermal.zero_matsubara.i_m_0_l_i q p (toC m) beta) ∧
    (∀ (q : ℝ) (p : ℝ) (m1 : T1) (m2 : T2) (beta : ℝ),
      thermal.zero_matsubara.i_m_m_t_i q p m1 m2 beta = thermal.zero_matsubara.i_m_m_t_i q p (toC m1) (toC m2) beta) ∧
    (∀ (q : ℝ) (p : ℝ) (m : T) (beta : ℝ),
      toC (thermal.zero_matsubara.i_m_m_t_i_same_mass q p m beta) = thermal.zero_matsubara.i_m_m_t_i_same_mass q p (toC m) beta) ∧
    (∀ (q : ℝ) (p : ℝ) (m : T) (beta : ℝ),
      thermal.zero_matsubara.i_m_0_t_i q p m beta = thermal.zero_matsubara.i_m_0_t_i q p (toC m) beta) ∧
    (∀ (q : ℝ) (p : ℝ) (m1 : T1) (m2 : T2) (beta : ℝ),
      thermal.zero_matsubara.d_i_m_m_i q p m1 m2 beta = thermal.zero_matsubara.d_i_m_m_i q p (toC m1) (toC m2) beta) ∧
    (∀ (q : ℝ) (p : ℝ) (m : T) (beta : ℝ),
      toC (thermal.zero_matsubara.d_i_m_m_i_same_mass q p m beta) = thermal.zero_matsubara.d_i_m_m_i_same_mass q p (toC m) beta) ∧
    (∀ (q : ℝ) (p : ℝ) (m : T) (beta : ℝ),
      toC (thermal.zero_matsubara.d_i_m_0_i q p m beta) = thermal.zero_matsubara.d_i_m_0_i q p (toC m) beta) ∧
    (∀ (q : ℝ) (p : ℝ) (m1 : T1) (m2 : T2) (beta : ℝ),
      thermal.zero_matsubara.d_i_m_m_l_i q p m1 m2 beta = thermal.zero_matsubara.d_i_m_m_l_i q p (toC m1) (toC m2) beta) ∧
    (∀ (q : ℝ) (p : ℝ) (m : T) (beta : ℝ),
      toC (thermal.zero_matsubara.d_i_m_m_l_i_same_mass q p m beta) = thermal.zero_matsubara.d_i_m_m_l_i_same_mass q p (toC m) beta) ∧
    (∀ (q : ℝ) (p : ℝ) (m : T) (beta : ℝ),
      toC (thermal.zero_matsubara.d_i_m_0_l_i q p m beta) = thermal.zero_matsubara.d_i_m_0_l_i q p (toC m) beta) ∧
    (∀ (q : ℝ) (p : ℝ) (m1 : T1) (m2 : T2) (beta : ℝ),
      thermal.zero_matsubara.d_i_m_m_t_i q p m1 m2 beta = thermal.zero_matsubara.d_i_m_m_t_i q p (toC m1) (toC m2) beta) ∧
    (∀ (q : ℝ) (p : ℝ) (m : T) (beta : ℝ),
      toC (thermal.zero_matsubara.d_i_m_m_t_i_same_mass q p m beta) = thermal.zero_matsubara.d_i_m_m_t_i_same_mass q p (toC m) beta) ∧
    (∀ (q : ℝ) (p : ℝ) (m : T) (beta : ℝ),
      thermal.zero_matsubara.d_i_m_0_t_i q p m beta = thermal.zero_matsubara.d_i_m_0_t_i q p (toC m) beta) :=
  ⟨toC_thermal_zero_matsubara_r_0,
   toC_thermal_zero_matsubara_tlog,
   toC_thermal_zero_matsubara_tlog_t,
   toC_thermal_zero_matsubara_i_m_m_i,
   toC_thermal_zero_matsubara_i_m_m_i_same_mass,
   toC_thermal_zero_matsubara_i_m_0_i,
   toC_thermal_zero_matsubara_i_m_m_l_i,
   toC_thermal_zero_matsubara_i_m_m_l_i_same_mass,
   toC_thermal_zero_matsubara_i_m_0_l_i,
   toC_thermal_zero_matsubara_i_m_m_t_i,
   toC_thermal_zero_matsubara_i_m_m_t_i_same_mass,
   toC_thermal_zero_matsubara_i_m_0_t_i,
   toC_thermal_zero_matsubara_d_i_m_m_i,
   toC_thermal_zero_matsubara_d_i_m_m_i_same_mass,
   toC_thermal_zero_matsubara_d_i_m_0_i,
   toC_thermal_zero_matsubara_d_i_m_m_l_i,
   toC_thermal_zero_matsubara_d_i_m_m_l_i_same_mass,
   toC_thermal_zero_matsubara_d_i_m_0_l_i,
   toC_thermal_zero_matsubara_d_i_m_m_t_i,
   toC_thermal_zero_matsubara_d_i_m_m_t_i_same_mass,
   toC_thermal_zero_matsubara_d_i_m_0_t_i⟩

/-- All generic functions of `ghost.thermal`. -/
theorem C33_ghost_thermal :
    (∀ (q : ℝ) (om : T) (p : ℝ) (m : ℝ) (beta : ℝ),
      ghost.thermal.self_energy_thermal_part_landau_i q om p m beta = ghost.thermal.self_energy_thermal_part_landau_i q (toC om) p m beta) :=
  toC_ghost_thermal_self_energy_thermal_part_landau_i

/-- All generic functions of `ghost.thermal.zero_momentum`. -/
theorem C33_ghost_thermal_zero_momentum :
    (∀ (q : ℝ) (om : T) (m : ℝ) (beta : ℝ),
      ghost.thermal.zero_momentum.self_energy_thermal_part_landau_i q om m beta = ghost.thermal.zero_momentum.self_energy_thermal_part_landau_i q (toC om) m beta) :=
  toC_ghost_thermal_zero_momentum_self_energy_thermal_part_landau_i

/-- All generic functions of `gluon.thermal`. -/
theorem C33_gluon_thermal :
    (∀ (q : ℝ) (om : T1) (p : T2) (m : ℝ) (beta : ℝ),
      gluon.thermal.polarization_glue_l_thermal_part_landau_i q om p m beta = gluon.thermal.polarization_glue_l_thermal_part_landau_i q (toC om) (toC p) m beta) ∧
    (∀ (q : ℝ) (om : T) (p : ℝ) (m : ℝ) (beta : ℝ),
      gluon.thermal.polarization_glue_t_thermal_part_landau_i q om p m beta = gluon.thermal.polarization_glue_t_thermal_part_landau_i q (toC om) p m beta) ∧
    (∀ (k : Consts ℝ) (q : ℝ) (om : T1) (p : T2) (mq : ℝ) (beta : ℝ) (mu : ℝ),
      gluon.thermal.polarization_quark_l_thermal_part_landau_i k q om p mq beta mu = gluon.thermal.polarization_quark_l_thermal_part_landau_i k q (toC om) (toC p) mq beta mu) ∧
    (∀ (k : Consts ℝ) (q : ℝ) (om : T) (p : ℝ) (mq : ℝ) (beta : ℝ) (mu : ℝ),
      gluon.thermal.polarization_quark_t_thermal_part_landau_i k q om p mq beta mu = gluon.thermal.polarization_quark_t_thermal_part_landau_i k q (toC om) p mq beta mu) ∧
    (∀ (k : Consts ℝ) (q : ℝ) (om : T1) (p : T2) (mq : ℝ) (mu : ℝ),
      gluon.thermal.polarization_quark_l_thermal_part_zero_temp_landau_i k q om p mq mu = gluon.thermal.polarization_quark_l_thermal_part_zero_temp_landau_i k q (toC om) (toC p) mq mu) ∧
    (∀ (k : Consts ℝ) (q : ℝ) (om : T) (p : ℝ) (mq : ℝ) (mu : ℝ),
      gluon.thermal.polarization_quark_t_thermal_part_zero_temp_landau_i k q om p mq mu = gluon.thermal.polarization_quark_t_thermal_part_zero_temp_landau_i k q (toC om) p mq mu) :=
  ⟨toC_gluon_thermal_polarization_glue_l_thermal_part_landau_i,
   toC_gluon_thermal_polarization_glue_t_thermal_part_landau_i,
   toC_gluon_thermal_polarization_quark_l_thermal_part_landau_i,
   toC_gluon_thermal_polarization_quark_t_thermal_part_landau_i,
   toC_gluon_thermal_polarization_quark_l_thermal_part_zero_temp_landau_i,
   toC_gluon_thermal_polarization_quark_t_thermal_part_zero_temp_landau_i⟩

/-- All generic functions of `gluon.thermal.zero_momentum`. -/
theorem C33_gluon_thermal_zero_momentum :
    (∀ (q : ℝ) (om : T) (m : ℝ) (beta : ℝ),
      gluon.thermal.zero_momentum.polarization_glue_l_thermal_part_landau_i q om m beta = gluon.thermal.zero_momentum.polarization_glue_l_thermal_part_landau_i q (toC om) m beta) ∧
    (∀ (q : ℝ) (om : T) (m : ℝ) (beta : ℝ),
      gluon.thermal.zero_momentum.polarization_glue_t_thermal_part_landau_i q om m beta = gluon.thermal.zero_momentum.polarization_glue_t_thermal_part_landau_i q (toC om) m beta) ∧
    (∀ (k : Consts ℝ) (q : ℝ) (om : T) (mq : ℝ) (beta : ℝ) (mu : ℝ),
      toC (gluon.thermal.zero_momentum.polarization_quark_l_thermal_part_landau_i k q om mq beta mu) = gluon.thermal.zero_momentum.polarization_quark_l_thermal_part_landau_i k q (toC om) mq beta mu) ∧
    (∀ (k : Consts ℝ) (q : ℝ) (om : T) (mq : ℝ) (beta : ℝ) (mu : ℝ),
      toC (gluon.thermal.zero_momentum.polarization_quark_t_thermal_part_landau_i k q om mq beta mu) = gluon.thermal.zero_momentum.polarization_quark_t_thermal_part_landau_i k q (toC om) mq beta mu) ∧
    (∀ (k : Consts ℝ) (q : ℝ) (om : T) (mq : ℝ) (mu : ℝ),
      toC (gluon.thermal.zero_momentum.polarization_quark_l_thermal_part_zero_temp_landau_i k q om mq mu) = gluon.thermal.zero_momentum.polarization_quark_l_thermal_part_zero_temp_landau_i k q (toC om) mq mu) ∧
    (∀ (k : Consts ℝ) (q : ℝ) (om : T) (mq : ℝ) (mu : ℝ),
      toC (gluon.thermal.zero_momentum.polarization_quark_t_thermal_part_zero_temp_landau_i k q om mq mu) = gluon.thermal.zero_momentum.polarization_quark_t_thermal_part_zero_temp_landau_i k q (toC om) mq mu) :=
  ⟨toC_gluon_thermal_zero_momentum_polarization_glue_l_thermal_part_landau_i,
   toC_gluon_thermal_zero_momentum_polarization_glue_t_thermal_part_landau_i,
   toC_gluon_thermal_zero_momentum_polarization_quark_l_thermal_part_landau_i,
   toC_gluon_thermal_zero_momentum_polarization_quark_t_thermal_part_landau_i,
   toC_gluon_thermal_zero_momentum_polarization_quark_l_thermal_part_zero_temp_landau_i,
   toC_gluon_thermal_zero_momentum_polarization_quark_t_thermal_part_zero_temp_landau_i⟩

/- A call with a real frequency and one real, one complex mass, and the same call with complex
numbers only. -/
example : thermal.i_m_m_i 1 (2 : ℝ) 3 Complex.I (1 : ℝ) 1 =
    thermal.i_m_m_i 1 (((2 : ℝ)) : ℂ) 3 Complex.I ((1 : ℝ) : ℂ) 1 :=
  toC_thermal_i_m_m_i (T1 := ℝ) (T2 := ℂ) (T3 := ℝ) 1 2 3 Complex.I 1 1

end Qcd
