import Verif.Model.ThermalParts

/-! # The generic integrands commute with the promotion to complex arguments -/

set_option linter.unusedSimpArgs false

namespace Qcd
open consts (Consts)

variable {T T1 T2 T3 T4 : Type} [Num T] [Num T1] [Num T2] [Num T3] [Num T4]

theorem toC_energy (q : ℝ) (m : T) : toC (energy q m) = energy q (toC m) := by
  unfold energy energy_squared
  rw [toC_sqrt_energy]; simp

theorem toC_bose (en : T) (beta : ℝ) :
    toC (bose_distribution_zero_chempot en beta) = bose_distribution_zero_chempot (toC en) beta := by
  unfold bose_distribution_zero_chempot statistic_distribution_exponential_zero_chempot
  change (Num.toC : T →+* ℂ) (_ - _)⁻¹ = _
  rw [map_inv₀, map_sub]
  change (toC (NumOps.exp _) - toC (ofR 1 : T))⁻¹ = _
  rw [toC_exp]; simp

theorem toC_thermal_r_0 (om : T1) (p : T2) (en : T3) (delta : T4) :
    thermal.r_0 om p en delta = thermal.r_0 (toC om) (toC p) (toC en) (toC delta) := by
  simp only [thermal.r_0, toC_energy, toC_bose, map_mul, map_add, map_neg, map_div₀, map_sub, map_inv₀, toC_complex, toC_ofR, ofR_complex]

theorem toC_thermal_r_0_same_mass (om : T1) (p : T2) (en : T3) :
    thermal.r_0_same_mass om p en = thermal.r_0_same_mass (toC om) (toC p) (toC en) := by
  simp only [thermal.r_0_same_mass, toC_energy, toC_bose, map_mul, map_add, map_neg, map_div₀, map_sub, map_inv₀, toC_complex, toC_ofR, ofR_complex]

theorem toC_thermal_tlog (q : ℝ) (om : T1) (p : T2) (en : T3) (delta : T4) :
    thermal.tlog q om p en delta = thermal.tlog q (toC om) (toC p) (toC en) (toC delta) := by
  simp only [thermal.tlog, thermal.r_0, toC_energy, toC_bose, map_mul, map_add, map_neg, map_div₀, map_sub, map_inv₀, toC_complex, toC_ofR, ofR_complex]

theorem toC_thermal_tlog_same_mass (q : ℝ) (om : T1) (p : T2) (en : T3) :
    thermal.tlog_same_mass q om p en = thermal.tlog_same_mass q (toC om) (toC p) (toC en) := by
  simp only [thermal.tlog_same_mass, thermal.r_0_same_mass, toC_energy, toC_bose, map_mul, map_add, map_neg, map_div₀, map_sub, map_inv₀, toC_complex, toC_ofR, ofR_complex]

theorem toC_thermal_tlog_zero_mass (q : ℝ) (om : T1) (p : T2) :
    thermal.tlog_zero_mass q om p = thermal.tlog_zero_mass q (toC om) (toC p) := by
  simp only [thermal.tlog_zero_mass, thermal.r_0_same_mass, toC_energy, toC_bose, map_mul, map_add, map_neg, map_div₀, map_sub, map_inv₀, toC_complex, toC_ofR, ofR_complex]

theorem toC_thermal_tlog_l (q : ℝ) (om : T1) (p : T2) (en : T3) (delta : T4) :
    thermal.tlog_l q om p en delta = thermal.tlog_l q (toC om) (toC p) (toC en) (toC delta) := by
  simp only [thermal.tlog_l, thermal.r_0, thermal.tlog, toC_energy, toC_bose, map_mul, map_add, map_neg, map_div₀, map_sub, map_inv₀, toC_complex, toC_ofR, ofR_complex]

theorem toC_thermal_tlog_l_same_mass (q : ℝ) (om : T1) (p : T2) (en : T3) :
    thermal.tlog_l_same_mass q om p en = thermal.tlog_l_same_mass q (toC om) (toC p) (toC en) := by
  simp only [thermal.tlog_l_same_mass, thermal.r_0_same_mass, thermal.tlog_same_mass, toC_energy, toC_bose, map_mul, map_add, map_neg, map_div₀, map_sub, map_inv₀, toC_complex, toC_ofR, ofR_complex]

theorem toC_thermal_tlog_l_zero_mass (q : ℝ) (om : T1) (p : T2) :
    thermal.tlog_l_zero_mass q om p = thermal.tlog_l_zero_mass q (toC om) (toC p) := by
  simp only [thermal.tlog_l_zero_mass, thermal.r_0_same_mass, thermal.tlog_zero_mass, toC_energy, toC_bose, map_mul, map_add, map_neg, map_div₀, map_sub, map_inv₀, toC_complex, toC_ofR, ofR_complex]

theorem toC_thermal_tlog_t (q : ℝ) (om : T1) (p : ℝ) (en : T2) (delta : T3) :
    thermal.tlog_t q om p en delta = thermal.tlog_t q (toC om) p (toC en) (toC delta) := by
  simp only [thermal.tlog_t, thermal.r_0, thermal.tlog, toC_energy, toC_bose, map_mul, map_add, map_neg, map_div₀, map_sub, map_inv₀, toC_complex, toC_ofR, ofR_complex]

theorem toC_thermal_tlog_t_same_mass (q : ℝ) (om : T1) (p : ℝ) (en : T2) :
    thermal.tlog_t_same_mass q om p en = thermal.tlog_t_same_mass q (toC om) p (toC en) := by
  simp only [thermal.tlog_t_same_mass, thermal.r_0_same_mass, thermal.tlog_same_mass, toC_energy, toC_bose, map_mul, map_add, map_neg, map_div₀, map_sub, map_inv₀, toC_complex, toC_ofR, ofR_complex]

theorem toC_thermal_tlog_t_zero_mass (q : ℝ) (om : T) (p : ℝ) :
    thermal.tlog_t_zero_mass q om p = thermal.tlog_t_zero_mass q (toC om) p := by
  simp only [thermal.tlog_t_zero_mass, thermal.r_0_same_mass, thermal.tlog_zero_mass, toC_energy, toC_bose, map_mul, map_add, map_neg, map_div₀, map_sub, map_inv₀, toC_complex, toC_ofR, ofR_complex]

theorem toC_thermal_j_m_i (q : ℝ) (m : T) (beta : ℝ) :
    toC (thermal.j_m_i q m beta) = thermal.j_m_i q (toC m) beta := by
  simp only [thermal.j_m_i, toC_energy, toC_bose, map_mul, map_add, map_neg, map_div₀, map_sub, map_inv₀, toC_complex, toC_ofR, ofR_complex]

theorem toC_thermal_j_m_l_i (q : ℝ) (m : T) (beta : ℝ) :
    toC (thermal.j_m_l_i q m beta) = thermal.j_m_l_i q (toC m) beta := by
  simp only [thermal.j_m_l_i, toC_energy, toC_bose, map_mul, map_add, map_neg, map_div₀, map_sub, map_inv₀, toC_complex, toC_ofR, ofR_complex]

theorem toC_thermal_j_m_t_i (q : ℝ) (m : T) (beta : ℝ) :
    toC (thermal.j_m_t_i q m beta) = thermal.j_m_t_i q (toC m) beta := by
  simp only [thermal.j_m_t_i, toC_energy, toC_bose, map_mul, map_add, map_neg, map_div₀, map_sub, map_inv₀, toC_complex, toC_ofR, ofR_complex]

theorem toC_thermal_i_m_m_i (q : ℝ) (om : T1) (p : ℝ) (m1 : T2) (m2 : T3) (beta : ℝ) :
    thermal.i_m_m_i q om p m1 m2 beta = thermal.i_m_m_i q (toC om) p (toC m1) (toC m2) beta := by
  simp only [thermal.i_m_m_i, thermal.r_0, thermal.tlog, toC_energy, toC_bose, map_mul, map_add, map_neg, map_div₀, map_sub, map_inv₀, toC_complex, toC_ofR, ofR_complex]

theorem toC_thermal_i_m_m_i_same_mass (q : ℝ) (om : T1) (p : T2) (m : T3) (beta : ℝ) :
    thermal.i_m_m_i_same_mass q om p m beta = thermal.i_m_m_i_same_mass q (toC om) (toC p) (toC m) beta := by
  simp only [thermal.i_m_m_i_same_mass, thermal.r_0_same_mass, thermal.tlog_same_mass, toC_energy, toC_bose, map_mul, map_add, map_neg, map_div₀, map_sub, map_inv₀, toC_complex, toC_ofR, ofR_complex]

theorem toC_thermal_i_m_0_i (q : ℝ) (om : T1) (p : T2) (m : T3) (beta : ℝ) :
    thermal.i_m_0_i q om p m beta = thermal.i_m_0_i q (toC om) (toC p) (toC m) beta := by
  simp only [thermal.i_m_0_i, thermal.r_0, thermal.tlog, toC_energy, toC_bose, map_mul, map_add, map_neg, map_div₀, map_sub, map_inv₀, toC_complex, toC_ofR, ofR_complex]

theorem toC_thermal_i_0_0_i (q : ℝ) (om : T) (p : ℝ) (beta : ℝ) :
    thermal.i_0_0_i q om p beta = thermal.i_0_0_i q (toC om) p beta := by
  simp only [thermal.i_0_0_i, thermal.r_0_same_mass, thermal.tlog_zero_mass, toC_energy, toC_bose, map_mul, map_add, map_neg, map_div₀, map_sub, map_inv₀, toC_complex, toC_ofR, ofR_complex]

theorem toC_thermal_i_m_m_l_i (q : ℝ) (om : T1) (p : ℝ) (m1 : T2) (m2 : T3) (beta : ℝ) :
    thermal.i_m_m_l_i q om p m1 m2 beta = thermal.i_m_m_l_i q (toC om) p (toC m1) (toC m2) beta := by
  simp only [thermal.i_m_m_l_i, thermal.r_0, thermal.tlog, thermal.tlog_l, toC_energy, toC_bose, map_mul, map_add, map_neg, map_div₀, map_sub, map_inv₀, toC_complex, toC_ofR, ofR_complex]

theorem toC_thermal_i_m_m_l_i_same_mass (q : ℝ) (om : T1) (p : T2) (m : T3) (beta : ℝ) :
    thermal.i_m_m_l_i_same_mass q om p m beta = thermal.i_m_m_l_i_same_mass q (toC om) (toC p) (toC m) beta := by
  simp only [thermal.i_m_m_l_i_same_mass, thermal.r_0_same_mass, thermal.tlog_l_same_mass, thermal.tlog_same_mass, toC_energy, toC_bose, map_mul, map_add, map_neg, map_div₀, map_sub, map_inv₀, toC_complex, toC_ofR, ofR_complex]

theorem toC_thermal_i_m_0_l_i (q : ℝ) (om : T1) (p : T2) (m : T3) (beta : ℝ) :
    thermal.i_m_0_l_i q om p m beta = thermal.i_m_0_l_i q (toC om) (toC p) (toC m) beta := by
  simp only [thermal.i_m_0_l_i, thermal.r_0, thermal.tlog, thermal.tlog_l, toC_energy, toC_bose, map_mul, map_add, map_neg, map_div₀, map_sub, map_inv₀, toC_complex, toC_ofR, ofR_complex]

theorem toC_thermal_i_0_0_l_i (q : ℝ) (om : T1) (p : T2) (beta : ℝ) :
    thermal.i_0_0_l_i q om p beta = thermal.i_0_0_l_i q (toC om) (toC p) beta := by
  simp only [thermal.i_0_0_l_i, thermal.r_0_same_mass, thermal.tlog_l_zero_mass, thermal.tlog_zero_mass, toC_energy, toC_bose, map_mul, map_add, map_neg, map_div₀, map_sub, map_inv₀, toC_complex, toC_ofR, ofR_complex]

theorem toC_thermal_i_m_m_t_i (q : ℝ) (om : T1) (p : ℝ) (m1 : T2) (m2 : T3) (beta : ℝ) :
    thermal.i_m_m_t_i q om p m1 m2 beta = thermal.i_m_m_t_i q (toC om) p (toC m1) (toC m2) beta := by
  simp only [thermal.i_m_m_t_i, thermal.r_0, thermal.tlog, thermal.tlog_t, toC_energy, toC_bose, map_mul, map_add, map_neg, map_div₀, map_sub, map_inv₀, toC_complex, toC_ofR, ofR_complex]

theorem toC_thermal_i_m_m_t_i_same_mass (q : ℝ) (om : T1) (p : ℝ) (m : T2) (beta : ℝ) :
    thermal.i_m_m_t_i_same_mass q om p m beta = thermal.i_m_m_t_i_same_mass q (toC om) p (toC m) beta := by
  simp only [thermal.i_m_m_t_i_same_mass, thermal.r_0_same_mass, thermal.tlog_same_mass, thermal.tlog_t_same_mass, toC_energy, toC_bose, map_mul, map_add, map_neg, map_div₀, map_sub, map_inv₀, toC_complex, toC_ofR, ofR_complex]

theorem toC_thermal_i_m_0_t_i (q : ℝ) (om : T1) (p : ℝ) (m : T2) (beta : ℝ) :
    thermal.i_m_0_t_i q om p m beta = thermal.i_m_0_t_i q (toC om) p (toC m) beta := by
  simp only [thermal.i_m_0_t_i, thermal.r_0, thermal.tlog, thermal.tlog_t, toC_energy, toC_bose, map_mul, map_add, map_neg, map_div₀, map_sub, map_inv₀, toC_complex, toC_ofR, ofR_complex]

theorem toC_thermal_i_0_0_t_i (q : ℝ) (om : T) (p : ℝ) (beta : ℝ) :
    thermal.i_0_0_t_i q om p beta = thermal.i_0_0_t_i q (toC om) p beta := by
  simp only [thermal.i_0_0_t_i, thermal.r_0_same_mass, thermal.tlog_t_zero_mass, thermal.tlog_zero_mass, toC_energy, toC_bose, map_mul, map_add, map_neg, map_div₀, map_sub, map_inv₀, toC_complex, toC_ofR, ofR_complex]

theorem toC_thermal_d_j_m_i (q : ℝ) (m : T) (beta : ℝ) :
    toC (thermal.d_j_m_i q m beta) = thermal.d_j_m_i q (toC m) beta := by
  simp only [thermal.d_j_m_i, toC_energy, toC_bose, map_mul, map_add, map_neg, map_div₀, map_sub, map_inv₀, toC_complex, toC_ofR, ofR_complex]

theorem toC_thermal_d2_j_m_i (q : ℝ) (m : T) (beta : ℝ) :
    toC (thermal.d2_j_m_i q m beta) = thermal.d2_j_m_i q (toC m) beta := by
  simp only [thermal.d2_j_m_i, toC_energy, toC_bose, map_mul, map_add, map_neg, map_div₀, map_sub, map_inv₀, toC_complex, toC_ofR, ofR_complex]

theorem toC_thermal_d_j_m_l_i (q : ℝ) (m : T) (beta : ℝ) :
    toC (thermal.d_j_m_l_i q m beta) = thermal.d_j_m_l_i q (toC m) beta := by
  simp only [thermal.d_j_m_l_i, toC_energy, toC_bose, map_mul, map_add, map_neg, map_div₀, map_sub, map_inv₀, toC_complex, toC_ofR, ofR_complex]

theorem toC_thermal_d2_j_m_l_i (q : ℝ) (m : T) (beta : ℝ) :
    toC (thermal.d2_j_m_l_i q m beta) = thermal.d2_j_m_l_i q (toC m) beta := by
  simp only [thermal.d2_j_m_l_i, toC_energy, toC_bose, map_mul, map_add, map_neg, map_div₀, map_sub, map_inv₀, toC_complex, toC_ofR, ofR_complex]

theorem toC_thermal_d_j_m_t_i (q : ℝ) (m : T) (beta : ℝ) :
    toC (thermal.d_j_m_t_i q m beta) = thermal.d_j_m_t_i q (toC m) beta := by
  simp only [thermal.d_j_m_t_i, toC_energy, toC_bose, map_mul, map_add, map_neg, map_div₀, map_sub, map_inv₀, toC_complex, toC_ofR, ofR_complex]

theorem toC_thermal_d2_j_m_t_i (q : ℝ) (m : T) (beta : ℝ) :
    toC (thermal.d2_j_m_t_i q m beta) = thermal.d2_j_m_t_i q (toC m) beta := by
  simp only [thermal.d2_j_m_t_i, toC_energy, toC_bose, map_mul, map_add, map_neg, map_div₀, map_sub, map_inv₀, toC_complex, toC_ofR, ofR_complex]

theorem toC_thermal_d_i_m_m_i (q : ℝ) (om : T1) (p : ℝ) (m1 : T2) (m2 : T3) (beta : ℝ) :
    thermal.d_i_m_m_i q om p m1 m2 beta = thermal.d_i_m_m_i q (toC om) p (toC m1) (toC m2) beta := by
  simp only [thermal.d_i_m_m_i, thermal.r_0, toC_energy, toC_bose, map_mul, map_add, map_neg, map_div₀, map_sub, map_inv₀, toC_complex, toC_ofR, ofR_complex]

theorem toC_thermal_d_i_m_m_i_same_mass (q : ℝ) (om : T1) (p : T2) (m : T3) (beta : ℝ) :
    thermal.d_i_m_m_i_same_mass q om p m beta = thermal.d_i_m_m_i_same_mass q (toC om) (toC p) (toC m) beta := by
  simp only [thermal.d_i_m_m_i_same_mass, thermal.r_0_same_mass, toC_energy, toC_bose, map_mul, map_add, map_neg, map_div₀, map_sub, map_inv₀, toC_complex, toC_ofR, ofR_complex]

theorem toC_thermal_d_i_m_0_i (q : ℝ) (om : T1) (p : T2) (m : T3) (beta : ℝ) :
    thermal.d_i_m_0_i q om p m beta = thermal.d_i_m_0_i q (toC om) (toC p) (toC m) beta := by
  simp only [thermal.d_i_m_0_i, thermal.r_0, toC_energy, toC_bose, map_mul, map_add, map_neg, map_div₀, map_sub, map_inv₀, toC_complex, toC_ofR, ofR_complex]

theorem toC_thermal_d_i_0_0_i (q : ℝ) (om : T) (p : ℝ) (beta : ℝ) :
    thermal.d_i_0_0_i q om p beta = thermal.d_i_0_0_i q (toC om) p beta := by
  simp only [thermal.d_i_0_0_i, thermal.r_0_same_mass, toC_energy, toC_bose, map_mul, map_add, map_neg, map_div₀, map_sub, map_inv₀, toC_complex, toC_ofR, ofR_complex]

theorem toC_thermal_d_i_m_m_l_i (q : ℝ) (om : T1) (p : ℝ) (m1 : T2) (m2 : T3) (beta : ℝ) :
    thermal.d_i_m_m_l_i q om p m1 m2 beta = thermal.d_i_m_m_l_i q (toC om) p (toC m1) (toC m2) beta := by
  simp only [thermal.d_i_m_m_l_i, thermal.r_0, thermal.tlog, toC_energy, toC_bose, map_mul, map_add, map_neg, map_div₀, map_sub, map_inv₀, toC_complex, toC_ofR, ofR_complex]

theorem toC_thermal_d_i_m_m_l_i_same_mass (q : ℝ) (om : T1) (p : T2) (m : T3) (beta : ℝ) :
    thermal.d_i_m_m_l_i_same_mass q om p m beta = thermal.d_i_m_m_l_i_same_mass q (toC om) (toC p) (toC m) beta := by
  simp only [thermal.d_i_m_m_l_i_same_mass, thermal.r_0_same_mass, toC_energy, toC_bose, map_mul, map_add, map_neg, map_div₀, map_sub, map_inv₀, toC_complex, toC_ofR, ofR_complex]

theorem toC_thermal_d_i_m_0_l_i (q : ℝ) (om : T1) (p : T2) (m : T3) (beta : ℝ) :
    thermal.d_i_m_0_l_i q om p m beta = thermal.d_i_m_0_l_i q (toC om) (toC p) (toC m) beta := by
  simp only [thermal.d_i_m_0_l_i, thermal.r_0, thermal.tlog, toC_energy, toC_bose, map_mul, map_add, map_neg, map_div₀, map_sub, map_inv₀, toC_complex, toC_ofR, ofR_complex]

theorem toC_thermal_d_i_0_0_l_i (q : ℝ) (om : T) (p : ℝ) (beta : ℝ) :
    thermal.d_i_0_0_l_i q om p beta = thermal.d_i_0_0_l_i q (toC om) p beta := by
  simp only [thermal.d_i_0_0_l_i, thermal.r_0_same_mass, toC_energy, toC_bose, map_mul, map_add, map_neg, map_div₀, map_sub, map_inv₀, toC_complex, toC_ofR, ofR_complex]

theorem toC_thermal_d_i_m_m_t_i (q : ℝ) (om : T1) (p : ℝ) (m1 : T2) (m2 : T3) (beta : ℝ) :
    thermal.d_i_m_m_t_i q om p m1 m2 beta = thermal.d_i_m_m_t_i q (toC om) p (toC m1) (toC m2) beta := by
  simp only [thermal.d_i_m_m_t_i, thermal.r_0, thermal.tlog, toC_energy, toC_bose, map_mul, map_add, map_neg, map_div₀, map_sub, map_inv₀, toC_complex, toC_ofR, ofR_complex]

theorem toC_thermal_d_i_m_m_t_i_same_mass (q : ℝ) (om : T1) (p : ℝ) (m : T2) (beta : ℝ) :
    thermal.d_i_m_m_t_i_same_mass q om p m beta = thermal.d_i_m_m_t_i_same_mass q (toC om) p (toC m) beta := by
  simp only [thermal.d_i_m_m_t_i_same_mass, thermal.r_0_same_mass, thermal.tlog_same_mass, toC_energy, toC_bose, map_mul, map_add, map_neg, map_div₀, map_sub, map_inv₀, toC_complex, toC_ofR, ofR_complex]

theorem toC_thermal_d_i_m_0_t_i (q : ℝ) (om : T1) (p : ℝ) (m : T2) (beta : ℝ) :
    thermal.d_i_m_0_t_i q om p m beta = thermal.d_i_m_0_t_i q (toC om) p (toC m) beta := by
  simp only [thermal.d_i_m_0_t_i, thermal.r_0, thermal.tlog, toC_energy, toC_bose, map_mul, map_add, map_neg, map_div₀, map_sub, map_inv₀, toC_complex, toC_ofR, ofR_complex]

theorem toC_thermal_d_i_0_0_t_i (q : ℝ) (om : T) (p : ℝ) (beta : ℝ) :
    thermal.d_i_0_0_t_i q om p beta = thermal.d_i_0_0_t_i q (toC om) p beta := by
  simp only [thermal.d_i_0_0_t_i, thermal.r_0_same_mass, thermal.tlog_same_mass, toC_energy, toC_bose, map_mul, map_add, map_neg, map_div₀, map_sub, map_inv₀, toC_complex, toC_ofR, ofR_complex]

theorem toC_thermal_zero_momentum_r_0 (om : T1) (en : T2) (delta : T3) :
    thermal.zero_momentum.r_0 om en delta = thermal.zero_momentum.r_0 (toC om) (toC en) (toC delta) := by
  simp only [thermal.zero_momentum.r_0, toC_energy, toC_bose, map_mul, map_add, map_neg, map_div₀, map_sub, map_inv₀, toC_complex, toC_ofR, ofR_complex]

theorem toC_thermal_zero_momentum_r_0_same_mass (om : T1) (en : T2) :
    thermal.zero_momentum.r_0_same_mass om en = thermal.zero_momentum.r_0_same_mass (toC om) (toC en) := by
  simp only [thermal.zero_momentum.r_0_same_mass, toC_energy, toC_bose, map_mul, map_add, map_neg, map_div₀, map_sub, map_inv₀, toC_complex, toC_ofR, ofR_complex]

theorem toC_thermal_zero_momentum_i_m_m_i (q : ℝ) (om : T1) (m1 : T2) (m2 : T3) (beta : ℝ) :
    thermal.zero_momentum.i_m_m_i q om m1 m2 beta = thermal.zero_momentum.i_m_m_i q (toC om) (toC m1) (toC m2) beta := by
  simp only [thermal.zero_momentum.i_m_m_i, toC_energy, toC_bose, map_mul, map_add, map_neg, map_div₀, map_sub, map_inv₀, toC_complex, toC_ofR, ofR_complex]

theorem toC_thermal_zero_momentum_i_m_m_i_same_mass (q : ℝ) (om : T1) (m : T2) (beta : ℝ) :
    thermal.zero_momentum.i_m_m_i_same_mass q om m beta = thermal.zero_momentum.i_m_m_i_same_mass q (toC om) (toC m) beta := by
  simp only [thermal.zero_momentum.i_m_m_i_same_mass, toC_energy, toC_bose, map_mul, map_add, map_neg, map_div₀, map_sub, map_inv₀, toC_complex, toC_ofR, ofR_complex]

theorem toC_thermal_zero_momentum_i_m_0_i (q : ℝ) (om : T1) (m : T2) (beta : ℝ) :
    thermal.zero_momentum.i_m_0_i q om m beta = thermal.zero_momentum.i_m_0_i q (toC om) (toC m) beta := by
  simp only [thermal.zero_momentum.i_m_0_i, toC_energy, toC_bose, map_mul, map_add, map_neg, map_div₀, map_sub, map_inv₀, toC_complex, toC_ofR, ofR_complex]

theorem toC_thermal_zero_momentum_i_0_0_i (q : ℝ) (om : T) (beta : ℝ) :
    thermal.zero_momentum.i_0_0_i q om beta = thermal.zero_momentum.i_0_0_i q (toC om) beta := by
  simp only [thermal.zero_momentum.i_0_0_i, toC_energy, toC_bose, map_mul, map_add, map_neg, map_div₀, map_sub, map_inv₀, toC_complex, toC_ofR, ofR_complex]

theorem toC_thermal_zero_momentum_i_m_m_l_i (q : ℝ) (om : T1) (m1 : T2) (m2 : T3) (beta : ℝ) :
    thermal.zero_momentum.i_m_m_l_i q om m1 m2 beta = thermal.zero_momentum.i_m_m_l_i q (toC om) (toC m1) (toC m2) beta := by
  simp only [thermal.zero_momentum.i_m_m_l_i, toC_energy, toC_bose, map_mul, map_add, map_neg, map_div₀, map_sub, map_inv₀, toC_complex, toC_ofR, ofR_complex]

theorem toC_thermal_zero_momentum_i_m_m_l_i_same_mass (q : ℝ) (om : T1) (m : T2) (beta : ℝ) :
    thermal.zero_momentum.i_m_m_l_i_same_mass q om m beta = thermal.zero_momentum.i_m_m_l_i_same_mass q (toC om) (toC m) beta := by
  simp only [thermal.zero_momentum.i_m_m_l_i_same_mass, toC_energy, toC_bose, map_mul, map_add, map_neg, map_div₀, map_sub, map_inv₀, toC_complex, toC_ofR, ofR_complex]

theorem toC_thermal_zero_momentum_i_m_0_l_i (q : ℝ) (om : T1) (m : T2) (beta : ℝ) :
    thermal.zero_momentum.i_m_0_l_i q om m beta = thermal.zero_momentum.i_m_0_l_i q (toC om) (toC m) beta := by
  simp only [thermal.zero_momentum.i_m_0_l_i, toC_energy, toC_bose, map_mul, map_add, map_neg, map_div₀, map_sub, map_inv₀, toC_complex, toC_ofR, ofR_complex]

theorem toC_thermal_zero_momentum_i_0_0_l_i (q : ℝ) (om : T) (beta : ℝ) :
    thermal.zero_momentum.i_0_0_l_i q om beta = thermal.zero_momentum.i_0_0_l_i q (toC om) beta := by
  simp only [thermal.zero_momentum.i_0_0_l_i, toC_energy, toC_bose, map_mul, map_add, map_neg, map_div₀, map_sub, map_inv₀, toC_complex, toC_ofR, ofR_complex]

theorem toC_thermal_zero_momentum_i_m_m_t_i (q : ℝ) (om : T1) (m1 : T2) (m2 : T3) (beta : ℝ) :
    thermal.zero_momentum.i_m_m_t_i q om m1 m2 beta = thermal.zero_momentum.i_m_m_t_i q (toC om) (toC m1) (toC m2) beta := by
  simp only [thermal.zero_momentum.i_m_m_t_i, thermal.zero_momentum.i_m_m_l_i, toC_energy, toC_bose, map_mul, map_add, map_neg, map_div₀, map_sub, map_inv₀, toC_complex, toC_ofR, ofR_complex]

theorem toC_thermal_zero_momentum_i_m_m_t_i_same_mass (q : ℝ) (om : T1) (m : T2) (beta : ℝ) :
    thermal.zero_momentum.i_m_m_t_i_same_mass q om m beta = thermal.zero_momentum.i_m_m_t_i_same_mass q (toC om) (toC m) beta := by
  simp only [thermal.zero_momentum.i_m_m_t_i_same_mass, thermal.zero_momentum.i_m_m_l_i_same_mass, toC_energy, toC_bose, map_mul, map_add, map_neg, map_div₀, map_sub, map_inv₀, toC_complex, toC_ofR, ofR_complex]

theorem toC_thermal_zero_momentum_i_m_0_t_i (q : ℝ) (om : T1) (m : T2) (beta : ℝ) :
    thermal.zero_momentum.i_m_0_t_i q om m beta = thermal.zero_momentum.i_m_0_t_i q (toC om) (toC m) beta := by
  simp only [thermal.zero_momentum.i_m_0_t_i, thermal.zero_momentum.i_m_0_l_i, toC_energy, toC_bose, map_mul, map_add, map_neg, map_div₀, map_sub, map_inv₀, toC_complex, toC_ofR, ofR_complex]

theorem toC_thermal_zero_momentum_i_0_0_t_i (q : ℝ) (om : T) (beta : ℝ) :
    thermal.zero_momentum.i_0_0_t_i q om beta = thermal.zero_momentum.i_0_0_t_i q (toC om) beta := by
  simp only [thermal.zero_momentum.i_0_0_t_i, thermal.zero_momentum.i_0_0_l_i, toC_energy, toC_bose, map_mul, map_add, map_neg, map_div₀, map_sub, map_inv₀, toC_complex, toC_ofR, ofR_complex]

theorem toC_thermal_zero_momentum_d_i_m_m_i (q : ℝ) (om : T1) (m1 : T2) (m2 : T3) (beta : ℝ) :
    thermal.zero_momentum.d_i_m_m_i q om m1 m2 beta = thermal.zero_momentum.d_i_m_m_i q (toC om) (toC m1) (toC m2) beta := by
  simp only [thermal.zero_momentum.d_i_m_m_i, thermal.zero_momentum.r_0, toC_energy, toC_bose, map_mul, map_add, map_neg, map_div₀, map_sub, map_inv₀, toC_complex, toC_ofR, ofR_complex]

theorem toC_thermal_zero_momentum_d_i_m_m_i_same_mass (q : ℝ) (om : T1) (m : T2) (beta : ℝ) :
    thermal.zero_momentum.d_i_m_m_i_same_mass q om m beta = thermal.zero_momentum.d_i_m_m_i_same_mass q (toC om) (toC m) beta := by
  simp only [thermal.zero_momentum.d_i_m_m_i_same_mass, thermal.zero_momentum.r_0_same_mass, toC_energy, toC_bose, map_mul, map_add, map_neg, map_div₀, map_sub, map_inv₀, toC_complex, toC_ofR, ofR_complex]

theorem toC_thermal_zero_momentum_d_i_m_0_i (q : ℝ) (om : T1) (m : T2) (beta : ℝ) :
    thermal.zero_momentum.d_i_m_0_i q om m beta = thermal.zero_momentum.d_i_m_0_i q (toC om) (toC m) beta := by
  simp only [thermal.zero_momentum.d_i_m_0_i, thermal.zero_momentum.r_0, toC_energy, toC_bose, map_mul, map_add, map_neg, map_div₀, map_sub, map_inv₀, toC_complex, toC_ofR, ofR_complex]

theorem toC_thermal_zero_momentum_d_i_0_0_i (q : ℝ) (om : T) (beta : ℝ) :
    thermal.zero_momentum.d_i_0_0_i q om beta = thermal.zero_momentum.d_i_0_0_i q (toC om) beta := by
  simp only [thermal.zero_momentum.d_i_0_0_i, thermal.zero_momentum.r_0_same_mass, toC_energy, toC_bose, map_mul, map_add, map_neg, map_div₀, map_sub, map_inv₀, toC_complex, toC_ofR, ofR_complex]

theorem toC_thermal_zero_momentum_d_i_m_m_l_i (q : ℝ) (om : T1) (m1 : T2) (m2 : T3) (beta : ℝ) :
    thermal.zero_momentum.d_i_m_m_l_i q om m1 m2 beta = thermal.zero_momentum.d_i_m_m_l_i q (toC om) (toC m1) (toC m2) beta := by
  simp only [thermal.zero_momentum.d_i_m_m_l_i, thermal.zero_momentum.r_0, toC_energy, toC_bose, map_mul, map_add, map_neg, map_div₀, map_sub, map_inv₀, toC_complex, toC_ofR, ofR_complex]

theorem toC_thermal_zero_momentum_d_i_m_m_l_i_same_mass (q : ℝ) (om : T1) (m : T2) (beta : ℝ) :
    thermal.zero_momentum.d_i_m_m_l_i_same_mass q om m beta = thermal.zero_momentum.d_i_m_m_l_i_same_mass q (toC om) (toC m) beta := by
  simp only [thermal.zero_momentum.d_i_m_m_l_i_same_mass, thermal.zero_momentum.r_0_same_mass, toC_energy, toC_bose, map_mul, map_add, map_neg, map_div₀, map_sub, map_inv₀, toC_complex, toC_ofR, ofR_complex]

theorem toC_thermal_zero_momentum_d_i_m_0_l_i (q : ℝ) (om : T1) (m : T2) (beta : ℝ) :
    thermal.zero_momentum.d_i_m_0_l_i q om m beta = thermal.zero_momentum.d_i_m_0_l_i q (toC om) (toC m) beta := by
  simp only [thermal.zero_momentum.d_i_m_0_l_i, thermal.zero_momentum.r_0, toC_energy, toC_bose, map_mul, map_add, map_neg, map_div₀, map_sub, map_inv₀, toC_complex, toC_ofR, ofR_complex]

theorem toC_thermal_zero_momentum_d_i_0_0_l_i (q : ℝ) (om : T) (beta : ℝ) :
    thermal.zero_momentum.d_i_0_0_l_i q om beta = thermal.zero_momentum.d_i_0_0_l_i q (toC om) beta := by
  simp only [thermal.zero_momentum.d_i_0_0_l_i, thermal.zero_momentum.r_0_same_mass, toC_energy, toC_bose, map_mul, map_add, map_neg, map_div₀, map_sub, map_inv₀, toC_complex, toC_ofR, ofR_complex]

theorem toC_thermal_zero_momentum_d_i_m_m_t_i (q : ℝ) (om : T1) (m1 : T2) (m2 : T3) (beta : ℝ) :
    thermal.zero_momentum.d_i_m_m_t_i q om m1 m2 beta = thermal.zero_momentum.d_i_m_m_t_i q (toC om) (toC m1) (toC m2) beta := by
  simp only [thermal.zero_momentum.d_i_m_m_t_i, thermal.zero_momentum.d_i_m_m_l_i, thermal.zero_momentum.r_0, toC_energy, toC_bose, map_mul, map_add, map_neg, map_div₀, map_sub, map_inv₀, toC_complex, toC_ofR, ofR_complex]

theorem toC_thermal_zero_momentum_d_i_m_m_t_i_same_mass (q : ℝ) (om : T1) (m : T2) (beta : ℝ) :
    thermal.zero_momentum.d_i_m_m_t_i_same_mass q om m beta = thermal.zero_momentum.d_i_m_m_t_i_same_mass q (toC om) (toC m) beta := by
  simp only [thermal.zero_momentum.d_i_m_m_t_i_same_mass, thermal.zero_momentum.d_i_m_m_l_i_same_mass, thermal.zero_momentum.r_0_same_mass, toC_energy, toC_bose, map_mul, map_add, map_neg, map_div₀, map_sub, map_inv₀, toC_complex, toC_ofR, ofR_complex]

theorem toC_thermal_zero_momentum_d_i_m_0_t_i (q : ℝ) (om : T1) (m : T2) (beta : ℝ) :
    thermal.zero_momentum.d_i_m_0_t_i q om m beta = thermal.zero_momentum.d_i_m_0_t_i q (toC om) (toC m) beta := by
  simp only [thermal.zero_momentum.d_i_m_0_t_i, thermal.zero_momentum.d_i_m_0_l_i, thermal.zero_momentum.r_0, toC_energy, toC_bose, map_mul, map_add, map_neg, map_div₀, map_sub, map_inv₀, toC_complex, toC_ofR, ofR_complex]

theorem toC_thermal_zero_momentum_d_i_0_0_t_i (q : ℝ) (om : T) (beta : ℝ) :
    thermal.zero_momentum.d_i_0_0_t_i q om beta = thermal.zero_momentum.d_i_0_0_t_i q (toC om) beta := by
  simp only [thermal.zero_momentum.d_i_0_0_t_i, thermal.zero_momentum.d_i_0_0_l_i, thermal.zero_momentum.r_0_same_mass, toC_energy, toC_bose, map_mul, map_add, map_neg, map_div₀, map_sub, map_inv₀, toC_complex, toC_ofR, ofR_complex]

theorem toC_thermal_zero_matsubara_r_0 (p : ℝ) (delta : T) :
    toC (thermal.zero_matsubara.r_0 p delta) = thermal.zero_matsubara.r_0 p (toC delta) := by
  simp only [thermal.zero_matsubara.r_0, toC_energy, toC_bose, map_mul, map_add, map_neg, map_div₀, map_sub, map_inv₀, toC_complex, toC_ofR, ofR_complex]

theorem toC_thermal_zero_matsubara_tlog (q : ℝ) (p : ℝ) (delta : T) :
    thermal.zero_matsubara.tlog q p delta = thermal.zero_matsubara.tlog q p (toC delta) := by
  simp only [thermal.zero_matsubara.tlog, thermal.zero_matsubara.r_0, toC_energy, toC_bose, map_mul, map_add, map_neg, map_div₀, map_sub, map_inv₀, toC_complex, toC_ofR, ofR_complex]

theorem toC_thermal_zero_matsubara_tlog_t (q : ℝ) (p : ℝ) (delta : T) :
    thermal.zero_matsubara.tlog_t q p delta = thermal.zero_matsubara.tlog_t q p (toC delta) := by
  simp only [thermal.zero_matsubara.tlog_t, thermal.zero_matsubara.r_0, thermal.zero_matsubara.tlog, toC_energy, toC_bose, map_mul, map_add, map_neg, map_div₀, map_sub, map_inv₀, toC_complex, toC_ofR, ofR_complex]

theorem toC_thermal_zero_matsubara_i_m_m_i (q : ℝ) (p : ℝ) (m1 : T1) (m2 : T2) (beta : ℝ) :
    thermal.zero_matsubara.i_m_m_i q p m1 m2 beta = thermal.zero_matsubara.i_m_m_i q p (toC m1) (toC m2) beta := by
  simp only [thermal.zero_matsubara.i_m_m_i, thermal.zero_matsubara.r_0, thermal.zero_matsubara.tlog, toC_energy, toC_bose, map_mul, map_add, map_neg, map_div₀, map_sub, map_inv₀, toC_complex, toC_ofR, ofR_complex]

theorem toC_thermal_zero_matsubara_i_m_m_i_same_mass (q : ℝ) (p : ℝ) (m : T) (beta : ℝ) :
    toC (thermal.zero_matsubara.i_m_m_i_same_mass q p m beta) = thermal.zero_matsubara.i_m_m_i_same_mass q p (toC m) beta := by
  simp only [thermal.zero_matsubara.i_m_m_i_same_mass, thermal.r_0_same_mass, thermal.tlog_same_mass, toC_energy, toC_bose, map_mul, map_add, map_neg, map_div₀, map_sub, map_inv₀, toC_complex, toC_ofR, ofR_complex]

theorem toC_thermal_zero_matsubara_i_m_0_i (q : ℝ) (p : ℝ) (m : T) (beta : ℝ) :
    thermal.zero_matsubara.i_m_0_i q p m beta = thermal.zero_matsubara.i_m_0_i q p (toC m) beta := by
  simp only [thermal.zero_matsubara.i_m_0_i, thermal.zero_matsubara.r_0, thermal.zero_matsubara.tlog, toC_energy, toC_bose, map_mul, map_add, map_neg, map_div₀, map_sub, map_inv₀, toC_complex, toC_ofR, ofR_complex]

theorem toC_thermal_zero_matsubara_i_m_m_l_i (q : ℝ) (p : ℝ) (m1 : T1) (m2 : T2) (beta : ℝ) :
    thermal.zero_matsubara.i_m_m_l_i q p m1 m2 beta = thermal.zero_matsubara.i_m_m_l_i q p (toC m1) (toC m2) beta := by
  simp only [thermal.zero_matsubara.i_m_m_l_i, thermal.zero_matsubara.r_0, thermal.zero_matsubara.tlog, toC_energy, toC_bose, map_mul, map_add, map_neg, map_div₀, map_sub, map_inv₀, toC_complex, toC_ofR, ofR_complex]

theorem toC_thermal_zero_matsubara_i_m_m_l_i_same_mass (q : ℝ) (p : ℝ) (m : T) (beta : ℝ) :
    toC (thermal.zero_matsubara.i_m_m_l_i_same_mass q p m beta) = thermal.zero_matsubara.i_m_m_l_i_same_mass q p (toC m) beta := by
  simp only [thermal.zero_matsubara.i_m_m_l_i_same_mass, thermal.r_0_same_mass, thermal.tlog_same_mass, toC_energy, toC_bose, map_mul, map_add, map_neg, map_div₀, map_sub, map_inv₀, toC_complex, toC_ofR, ofR_complex]

theorem toC_thermal_zero_matsubara_i_m_0_l_i (q : ℝ) (p : ℝ) (m : T) (beta : ℝ) :
    thermal.zero_matsubara.i_m_0_l_i q p m beta = thermal.zero_matsubara.i_m_0_l_i q p (toC m) beta := by
  simp only [thermal.zero_matsubara.i_m_0_l_i, thermal.zero_matsubara.r_0, thermal.zero_matsubara.tlog, toC_energy, toC_bose, map_mul, map_add, map_neg, map_div₀, map_sub, map_inv₀, toC_complex, toC_ofR, ofR_complex]

theorem toC_thermal_zero_matsubara_i_m_m_t_i (q : ℝ) (p : ℝ) (m1 : T1) (m2 : T2) (beta : ℝ) :
    thermal.zero_matsubara.i_m_m_t_i q p m1 m2 beta = thermal.zero_matsubara.i_m_m_t_i q p (toC m1) (toC m2) beta := by
  simp only [thermal.zero_matsubara.i_m_m_t_i, thermal.zero_matsubara.r_0, thermal.zero_matsubara.tlog, thermal.zero_matsubara.tlog_t, toC_energy, toC_bose, map_mul, map_add, map_neg, map_div₀, map_sub, map_inv₀, toC_complex, toC_ofR, ofR_complex]

theorem toC_thermal_zero_matsubara_i_m_m_t_i_same_mass (q : ℝ) (p : ℝ) (m : T) (beta : ℝ) :
    toC (thermal.zero_matsubara.i_m_m_t_i_same_mass q p m beta) = thermal.zero_matsubara.i_m_m_t_i_same_mass q p (toC m) beta := by
  simp only [thermal.zero_matsubara.i_m_m_t_i_same_mass, thermal.r_0_same_mass, thermal.tlog_same_mass, thermal.tlog_t_same_mass, toC_energy, toC_bose, map_mul, map_add, map_neg, map_div₀, map_sub, map_inv₀, toC_complex, toC_ofR, ofR_complex]

theorem toC_thermal_zero_matsubara_i_m_0_t_i (q : ℝ) (p : ℝ) (m : T) (beta : ℝ) :
    thermal.zero_matsubara.i_m_0_t_i q p m beta = thermal.zero_matsubara.i_m_0_t_i q p (toC m) beta := by
  simp only [thermal.zero_matsubara.i_m_0_t_i, thermal.zero_matsubara.r_0, thermal.zero_matsubara.tlog, thermal.zero_matsubara.tlog_t, toC_energy, toC_bose, map_mul, map_add, map_neg, map_div₀, map_sub, map_inv₀, toC_complex, toC_ofR, ofR_complex]

theorem toC_thermal_zero_matsubara_d_i_m_m_i (q : ℝ) (p : ℝ) (m1 : T1) (m2 : T2) (beta : ℝ) :
    thermal.zero_matsubara.d_i_m_m_i q p m1 m2 beta = thermal.zero_matsubara.d_i_m_m_i q p (toC m1) (toC m2) beta := by
  simp only [thermal.zero_matsubara.d_i_m_m_i, thermal.zero_matsubara.r_0, toC_energy, toC_bose, map_mul, map_add, map_neg, map_div₀, map_sub, map_inv₀, toC_complex, toC_ofR, ofR_complex]

theorem toC_thermal_zero_matsubara_d_i_m_m_i_same_mass (q : ℝ) (p : ℝ) (m : T) (beta : ℝ) :
    toC (thermal.zero_matsubara.d_i_m_m_i_same_mass q p m beta) = thermal.zero_matsubara.d_i_m_m_i_same_mass q p (toC m) beta := by
  simp only [thermal.zero_matsubara.d_i_m_m_i_same_mass, toC_energy, toC_bose, map_mul, map_add, map_neg, map_div₀, map_sub, map_inv₀, toC_complex, toC_ofR, ofR_complex]

theorem toC_thermal_zero_matsubara_d_i_m_0_i (q : ℝ) (p : ℝ) (m : T) (beta : ℝ) :
    toC (thermal.zero_matsubara.d_i_m_0_i q p m beta) = thermal.zero_matsubara.d_i_m_0_i q p (toC m) beta := by
  simp only [thermal.zero_matsubara.d_i_m_0_i, thermal.zero_matsubara.r_0, toC_energy, toC_bose, map_mul, map_add, map_neg, map_div₀, map_sub, map_inv₀, toC_complex, toC_ofR, ofR_complex]

theorem toC_thermal_zero_matsubara_d_i_m_m_l_i (q : ℝ) (p : ℝ) (m1 : T1) (m2 : T2) (beta : ℝ) :
    thermal.zero_matsubara.d_i_m_m_l_i q p m1 m2 beta = thermal.zero_matsubara.d_i_m_m_l_i q p (toC m1) (toC m2) beta := by
  simp only [thermal.zero_matsubara.d_i_m_m_l_i, thermal.zero_matsubara.r_0, toC_energy, toC_bose, map_mul, map_add, map_neg, map_div₀, map_sub, map_inv₀, toC_complex, toC_ofR, ofR_complex]

theorem toC_thermal_zero_matsubara_d_i_m_m_l_i_same_mass (q : ℝ) (p : ℝ) (m : T) (beta : ℝ) :
    toC (thermal.zero_matsubara.d_i_m_m_l_i_same_mass q p m beta) = thermal.zero_matsubara.d_i_m_m_l_i_same_mass q p (toC m) beta := by
  simp only [thermal.zero_matsubara.d_i_m_m_l_i_same_mass, toC_energy, toC_bose, map_mul, map_add, map_neg, map_div₀, map_sub, map_inv₀, toC_complex, toC_ofR, ofR_complex]

theorem toC_thermal_zero_matsubara_d_i_m_0_l_i (q : ℝ) (p : ℝ) (m : T) (beta : ℝ) :
    toC (thermal.zero_matsubara.d_i_m_0_l_i q p m beta) = thermal.zero_matsubara.d_i_m_0_l_i q p (toC m) beta := by
  simp only [thermal.zero_matsubara.d_i_m_0_l_i, thermal.zero_matsubara.r_0, toC_energy, toC_bose, map_mul, map_add, map_neg, map_div₀, map_sub, map_inv₀, toC_complex, toC_ofR, ofR_complex]

theorem toC_thermal_zero_matsubara_d_i_m_m_t_i (q : ℝ) (p : ℝ) (m1 : T1) (m2 : T2) (beta : ℝ) :
    thermal.zero_matsubara.d_i_m_m_t_i q p m1 m2 beta = thermal.zero_matsubara.d_i_m_m_t_i q p (toC m1) (toC m2) beta := by
  simp only [thermal.zero_matsubara.d_i_m_m_t_i, thermal.zero_matsubara.r_0, thermal.zero_matsubara.tlog, toC_energy, toC_bose, map_mul, map_add, map_neg, map_div₀, map_sub, map_inv₀, toC_complex, toC_ofR, ofR_complex]

theorem toC_thermal_zero_matsubara_d_i_m_m_t_i_same_mass (q : ℝ) (p : ℝ) (m : T) (beta : ℝ) :
    toC (thermal.zero_matsubara.d_i_m_m_t_i_same_mass q p m beta) = thermal.zero_matsubara.d_i_m_m_t_i_same_mass q p (toC m) beta := by
  simp only [thermal.zero_matsubara.d_i_m_m_t_i_same_mass, thermal.r_0_same_mass, thermal.tlog_same_mass, toC_energy, toC_bose, map_mul, map_add, map_neg, map_div₀, map_sub, map_inv₀, toC_complex, toC_ofR, ofR_complex]

theorem toC_thermal_zero_matsubara_d_i_m_0_t_i (q : ℝ) (p : ℝ) (m : T) (beta : ℝ) :
    thermal.zero_matsubara.d_i_m_0_t_i q p m beta = thermal.zero_matsubara.d_i_m_0_t_i q p (toC m) beta := by
  simp only [thermal.zero_matsubara.d_i_m_0_t_i, thermal.zero_matsubara.r_0, thermal.zero_matsubara.tlog, toC_energy, toC_bose, map_mul, map_add, map_neg, map_div₀, map_sub, map_inv₀, toC_complex, toC_ofR, ofR_complex]

theorem toC_ghost_thermal_self_energy_thermal_part_landau_i (q : ℝ) (om : T) (p : ℝ) (m : ℝ) (beta : ℝ) :
    ghost.thermal.self_energy_thermal_part_landau_i q om p m beta = ghost.thermal.self_energy_thermal_part_landau_i q (toC om) p m beta := by
  simp only [ghost.thermal.self_energy_thermal_part_landau_i, thermal.d_i_m_0_i, thermal.d_j_m_i, thermal.i_0_0_i, thermal.i_m_0_i, thermal.j_m_i, thermal.r_0, thermal.r_0_same_mass, thermal.tlog, thermal.tlog_zero_mass, toC_energy, toC_bose, map_mul, map_add, map_neg, map_div₀, map_sub, map_inv₀, toC_complex, toC_ofR, ofR_complex]

theorem toC_ghost_thermal_zero_momentum_self_energy_thermal_part_landau_i (q : ℝ) (om : T) (m : ℝ) (beta : ℝ) :
    ghost.thermal.zero_momentum.self_energy_thermal_part_landau_i q om m beta = ghost.thermal.zero_momentum.self_energy_thermal_part_landau_i q (toC om) m beta := by
  simp only [ghost.thermal.zero_momentum.self_energy_thermal_part_landau_i, thermal.d_j_m_i, thermal.j_m_i, thermal.zero_momentum.d_i_m_0_i, thermal.zero_momentum.i_0_0_i, thermal.zero_momentum.i_m_0_i, thermal.zero_momentum.r_0, toC_energy, toC_bose, map_mul, map_add, map_neg, map_div₀, map_sub, map_inv₀, toC_complex, toC_ofR, ofR_complex]

theorem toC_gluon_thermal_polarization_glue_l_thermal_part_landau_i (q : ℝ) (om : T1) (p : T2) (m : ℝ) (beta : ℝ) :
    gluon.thermal.polarization_glue_l_thermal_part_landau_i q om p m beta = gluon.thermal.polarization_glue_l_thermal_part_landau_i q (toC om) (toC p) m beta := by
  simp only [gluon.thermal.polarization_glue_l_thermal_part_landau_i, thermal.d2_j_m_i, thermal.d2_j_m_l_i, thermal.d2_j_m_t_i, thermal.d_i_m_0_i, thermal.d_i_m_0_l_i, thermal.d_i_m_m_i_same_mass, thermal.d_i_m_m_l_i_same_mass, thermal.d_j_m_i, thermal.d_j_m_l_i, thermal.d_j_m_t_i, thermal.i_0_0_l_i, thermal.i_m_0_i, thermal.i_m_0_l_i, thermal.i_m_m_i_same_mass, thermal.i_m_m_l_i_same_mass, thermal.j_m_i, thermal.j_m_l_i, thermal.j_m_t_i, thermal.r_0, thermal.r_0_same_mass, thermal.tlog, thermal.tlog_l, thermal.tlog_l_same_mass, thermal.tlog_l_zero_mass, thermal.tlog_same_mass, thermal.tlog_zero_mass, toC_energy, toC_bose, map_mul, map_add, map_neg, map_div₀, map_sub, map_inv₀, toC_complex, toC_ofR, ofR_complex]

theorem toC_gluon_thermal_polarization_glue_t_thermal_part_landau_i (q : ℝ) (om : T) (p : ℝ) (m : ℝ) (beta : ℝ) :
    gluon.thermal.polarization_glue_t_thermal_part_landau_i q om p m beta = gluon.thermal.polarization_glue_t_thermal_part_landau_i q (toC om) p m beta := by
  simp only [gluon.thermal.polarization_glue_t_thermal_part_landau_i, thermal.d2_j_m_i, thermal.d2_j_m_t_i, thermal.d_i_m_0_i, thermal.d_i_m_0_t_i, thermal.d_i_m_m_i_same_mass, thermal.d_i_m_m_t_i_same_mass, thermal.d_j_m_i, thermal.d_j_m_t_i, thermal.i_0_0_t_i, thermal.i_m_0_i, thermal.i_m_0_t_i, thermal.i_m_m_i_same_mass, thermal.i_m_m_t_i_same_mass, thermal.j_m_i, thermal.j_m_t_i, thermal.r_0, thermal.r_0_same_mass, thermal.tlog, thermal.tlog_same_mass, thermal.tlog_t, thermal.tlog_t_same_mass, thermal.tlog_t_zero_mass, thermal.tlog_zero_mass, toC_energy, toC_bose, map_mul, map_add, map_neg, map_div₀, map_sub, map_inv₀, toC_complex, toC_ofR, ofR_complex]

theorem toC_gluon_thermal_polarization_quark_l_thermal_part_landau_i (k : Consts ℝ) (q : ℝ) (om : T1) (p : T2) (mq : ℝ) (beta : ℝ) (mu : ℝ) :
    gluon.thermal.polarization_quark_l_thermal_part_landau_i k q om p mq beta mu = gluon.thermal.polarization_quark_l_thermal_part_landau_i k q (toC om) (toC p) mq beta mu := by
  simp only [gluon.thermal.polarization_quark_l_thermal_part_landau_i, thermal.r_0_same_mass, thermal.tlog_same_mass, toC_energy, toC_bose, map_mul, map_add, map_neg, map_div₀, map_sub, map_inv₀, toC_complex, toC_ofR, ofR_complex]

theorem toC_gluon_thermal_polarization_quark_t_thermal_part_landau_i (k : Consts ℝ) (q : ℝ) (om : T) (p : ℝ) (mq : ℝ) (beta : ℝ) (mu : ℝ) :
    gluon.thermal.polarization_quark_t_thermal_part_landau_i k q om p mq beta mu = gluon.thermal.polarization_quark_t_thermal_part_landau_i k q (toC om) p mq beta mu := by
  simp only [gluon.thermal.polarization_quark_t_thermal_part_landau_i, thermal.r_0_same_mass, thermal.tlog_same_mass, toC_energy, toC_bose, map_mul, map_add, map_neg, map_div₀, map_sub, map_inv₀, toC_complex, toC_ofR, ofR_complex]

theorem toC_gluon_thermal_polarization_quark_l_thermal_part_zero_temp_landau_i (k : Consts ℝ) (q : ℝ) (om : T1) (p : T2) (mq : ℝ) (mu : ℝ) :
    gluon.thermal.polarization_quark_l_thermal_part_zero_temp_landau_i k q om p mq mu = gluon.thermal.polarization_quark_l_thermal_part_zero_temp_landau_i k q (toC om) (toC p) mq mu := by
  simp only [gluon.thermal.polarization_quark_l_thermal_part_zero_temp_landau_i, thermal.r_0_same_mass, thermal.tlog_same_mass, toC_energy, toC_bose, map_mul, map_add, map_neg, map_div₀, map_sub, map_inv₀, toC_complex, toC_ofR, ofR_complex]

theorem toC_gluon_thermal_polarization_quark_t_thermal_part_zero_temp_landau_i (k : Consts ℝ) (q : ℝ) (om : T) (p : ℝ) (mq : ℝ) (mu : ℝ) :
    gluon.thermal.polarization_quark_t_thermal_part_zero_temp_landau_i k q om p mq mu = gluon.thermal.polarization_quark_t_thermal_part_zero_temp_landau_i k q (toC om) p mq mu := by
  simp only [gluon.thermal.polarization_quark_t_thermal_part_zero_temp_landau_i, thermal.r_0_same_mass, thermal.tlog_same_mass, toC_energy, toC_bose, map_mul, map_add, map_neg, map_div₀, map_sub, map_inv₀, toC_complex, toC_ofR, ofR_complex]

theorem toC_gluon_thermal_zero_momentum_polarization_glue_l_thermal_part_landau_i (q : ℝ) (om : T) (m : ℝ) (beta : ℝ) :
    gluon.thermal.zero_momentum.polarization_glue_l_thermal_part_landau_i q om m beta = gluon.thermal.zero_momentum.polarization_glue_l_thermal_part_landau_i q (toC om) m beta := by
  simp only [gluon.thermal.zero_momentum.polarization_glue_l_thermal_part_landau_i, thermal.d2_j_m_i, thermal.d2_j_m_t_i, thermal.d_j_m_i, thermal.d_j_m_t_i, thermal.j_m_i, thermal.j_m_t_i, thermal.zero_momentum.d_i_m_0_i, thermal.zero_momentum.d_i_m_0_l_i, thermal.zero_momentum.d_i_m_m_i_same_mass, thermal.zero_momentum.d_i_m_m_l_i_same_mass, thermal.zero_momentum.i_0_0_l_i, thermal.zero_momentum.i_m_0_i, thermal.zero_momentum.i_m_0_l_i, thermal.zero_momentum.i_m_m_i_same_mass, thermal.zero_momentum.i_m_m_l_i_same_mass, thermal.zero_momentum.r_0, thermal.zero_momentum.r_0_same_mass, toC_energy, toC_bose, map_mul, map_add, map_neg, map_div₀, map_sub, map_inv₀, toC_complex, toC_ofR, ofR_complex]

theorem toC_gluon_thermal_zero_momentum_polarization_glue_t_thermal_part_landau_i (q : ℝ) (om : T) (m : ℝ) (beta : ℝ) :
    gluon.thermal.zero_momentum.polarization_glue_t_thermal_part_landau_i q om m beta = gluon.thermal.zero_momentum.polarization_glue_t_thermal_part_landau_i q (toC om) m beta := by
  simp only [gluon.thermal.zero_momentum.polarization_glue_t_thermal_part_landau_i, gluon.thermal.zero_momentum.polarization_glue_l_thermal_part_landau_i, thermal.d2_j_m_i, thermal.d2_j_m_t_i, thermal.d_j_m_i, thermal.d_j_m_t_i, thermal.j_0_i, thermal.j_0_t_i, thermal.j_m_i, thermal.j_m_t_i, thermal.zero_momentum.d_i_m_0_i, thermal.zero_momentum.d_i_m_0_l_i, thermal.zero_momentum.d_i_m_m_i_same_mass, thermal.zero_momentum.d_i_m_m_l_i_same_mass, thermal.zero_momentum.i_0_0_l_i, thermal.zero_momentum.i_m_0_i, thermal.zero_momentum.i_m_0_l_i, thermal.zero_momentum.i_m_m_i_same_mass, thermal.zero_momentum.i_m_m_l_i_same_mass, thermal.zero_momentum.r_0, thermal.zero_momentum.r_0_same_mass, toC_energy, toC_bose, map_mul, map_add, map_neg, map_div₀, map_sub, map_inv₀, toC_complex, toC_ofR, ofR_complex]

theorem toC_gluon_thermal_zero_momentum_polarization_quark_l_thermal_part_landau_i (k : Consts ℝ) (q : ℝ) (om : T) (mq : ℝ) (beta : ℝ) (mu : ℝ) :
    toC (gluon.thermal.zero_momentum.polarization_quark_l_thermal_part_landau_i k q om mq beta mu) = gluon.thermal.zero_momentum.polarization_quark_l_thermal_part_landau_i k q (toC om) mq beta mu := by
  simp only [gluon.thermal.zero_momentum.polarization_quark_l_thermal_part_landau_i, toC_energy, toC_bose, map_mul, map_add, map_neg, map_div₀, map_sub, map_inv₀, toC_complex, toC_ofR, ofR_complex]

theorem toC_gluon_thermal_zero_momentum_polarization_quark_t_thermal_part_landau_i (k : Consts ℝ) (q : ℝ) (om : T) (mq : ℝ) (beta : ℝ) (mu : ℝ) :
    toC (gluon.thermal.zero_momentum.polarization_quark_t_thermal_part_landau_i k q om mq beta mu) = gluon.thermal.zero_momentum.polarization_quark_t_thermal_part_landau_i k q (toC om) mq beta mu := by
  simp only [gluon.thermal.zero_momentum.polarization_quark_t_thermal_part_landau_i, gluon.thermal.zero_momentum.polarization_quark_l_thermal_part_landau_i, toC_energy, toC_bose, map_mul, map_add, map_neg, map_div₀, map_sub, map_inv₀, toC_complex, toC_ofR, ofR_complex]

theorem toC_gluon_thermal_zero_momentum_polarization_quark_l_thermal_part_zero_temp_landau_i (k : Consts ℝ) (q : ℝ) (om : T) (mq : ℝ) (mu : ℝ) :
    toC (gluon.thermal.zero_momentum.polarization_quark_l_thermal_part_zero_temp_landau_i k q om mq mu) = gluon.thermal.zero_momentum.polarization_quark_l_thermal_part_zero_temp_landau_i k q (toC om) mq mu := by
  simp only [gluon.thermal.zero_momentum.polarization_quark_l_thermal_part_zero_temp_landau_i, toC_energy, toC_bose, map_mul, map_add, map_neg, map_div₀, map_sub, map_inv₀, toC_complex, toC_ofR, ofR_complex]

theorem toC_gluon_thermal_zero_momentum_polarization_quark_t_thermal_part_zero_temp_landau_i (k : Consts ℝ) (q : ℝ) (om : T) (mq : ℝ) (mu : ℝ) :
    toC (gluon.thermal.zero_momentum.polarization_quark_t_thermal_part_zero_temp_landau_i k q om mq mu) = gluon.thermal.zero_momentum.polarization_quark_t_thermal_part_zero_temp_landau_i k q (toC om) mq mu := by
  simp only [gluon.thermal.zero_momentum.polarization_quark_t_thermal_part_zero_temp_landau_i, gluon.thermal.zero_momentum.polarization_quark_l_thermal_part_zero_temp_landau_i, toC_energy, toC_bose, map_mul, map_add, map_neg, map_div₀, map_sub, map_inv₀, toC_complex, toC_ofR, ofR_complex]

end Qcd
